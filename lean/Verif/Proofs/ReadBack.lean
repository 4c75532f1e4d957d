import Verif.Proofs.Codec
import Verif.Proofs.FetchQuiet

/-!
# Reading what was written

`Db.fetchByUid` in terms of the attributes the rows decode to, the decryption of what was encrypted, and
C_GetAttributeValue for objects that agree in the attributes concerned.
-/

namespace Kry
open Spec

/-- The rows hold exactly these attributes. -/
def Decodes (r : List (Nat × DbVal)) (f : Nat → Option Attr) : Prop :=
  ∀ t, match AMap.get r t with
    | none => f t = none
    | some v => ∃ a, f t = some a ∧ decodeRow t v = .ok a

/-- The class field agrees with the attribute. -/
def ClsOk (o : Obj) : Prop := ∃ a, o.find CKA_CLASS = some a ∧ a.toUlong = .ok o.cls

theorem clsOk_new (c : Nat) (h : c < 2 ^ 64) : ClsOk (Obj.new c) := by
  refine ⟨Attr.ofUlong CKA_CLASS c, rfl, ?_⟩
  unfold Attr.toUlong Attr.ofUlong
  simp only
  rw [if_neg (by simp), if_neg (by rw [ulongBytes_length]; simp), fromLE_ulongBytes _ h]
  rfl

theorem clsOk_setAttr {o o' : Obj} {a : Attr} (h : ClsOk o) (hs : o.setAttr a = .ok o') : ClsOk o' := by
  have hf := find_setAttr hs CKA_CLASS
  unfold Obj.setAttr at hs
  split at hs
  · rename_i hc
    split at hs
    · cases hs
    · rename_i c hc'
      injection hs with hs
      rw [if_pos hc] at hf
      exact ⟨a, hf, by rw [← hs]; exact hc'⟩
  · rename_i hc
    injection hs with hs
    rw [if_neg hc] at hf
    obtain ⟨b, h1, h2⟩ := h
    exact ⟨b, hf.trans h1, by rw [← hs]; exact h2⟩

theorem setAttr_canon {a : Attr} (h : Canon a) (o : Obj) : ∃ o', o.setAttr a = .ok o' := by
  unfold Obj.setAttr
  split
  · rename_i hc
    obtain ⟨hk, hv⟩ := h
    rw [hc] at hk
    have : attrKind CKA_CLASS = some .num := by decide +kernel
    rw [this] at hk
    injection hk with hk
    rw [← hk] at hv
    have : ∃ c, a.toUlong = .ok c := by
      unfold Attr.toUlong
      rw [← hk]
      simp only at hv
      simp [hv]
    obtain ⟨c, hc⟩ := this
    rw [hc]
    exact ⟨_, rfl⟩
  · exact ⟨_, rfl⟩

theorem decodeRows_all {rows : List (Nat × DbVal)} (h : ∀ p ∈ rows, ∃ a, decodeRow p.1 p.2 = .ok a) (o : Obj) (hc : ClsOk o) :
    ∃ o', decodeRows o rows = .ok o' ∧ ClsOk o' := by
  induction rows generalizing o with
  | nil => exact ⟨o, rfl, hc⟩
  | cons p rows ih =>
    obtain ⟨a, ha⟩ := h p (.head _)
    obtain ⟨o1, h1⟩ := setAttr_canon (canon_decode ha) o
    unfold decodeRows
    obtain ⟨t, v⟩ := p
    simp only at ha
    rw [ha]
    simp only [h1]
    exact ih (fun q hq => h q (.tail _ hq)) o1 (clsOk_setAttr hc h1)

/-- What is read under a unique id, for given types. -/
theorem fetchByUid_rows {db : Db} (ok : TblOk db.objs) {u : Bytes} {r : List (Nat × DbVal)} (hr : rowsOf db.objs u = some r)
    {f : Nat → Option Attr} (hd : Decodes r f) (hcls : f CKA_CLASS ≠ none) {e : Env} (he : e.fails = none)
    {hints : List Nat} (hh : ∀ t ∈ hints, t < 2 ^ 32) (hc : hints ≠ [] → CKA_CLASS ∈ hints) :
    ∃ o, db.fetchByUid e u hints = .ok o ∧ ClsOk o ∧
      ∀ t, o.find t = if hints = [] ∨ t ∈ hints then f t else none := by
  obtain ⟨id, hm, hrow⟩ := (rowsOf_iff ok).1 hr
  have hn : (AMap.keys r).Nodup := ok.rows _ hm
  have hgc : ∃ v, AMap.get r CKA_CLASS = some v := by
    cases hx : AMap.get r CKA_CLASS with
    | some v => exact ⟨v, rfl⟩
    | none => have := hd CKA_CLASS; rw [hx] at this; exact absurd this hcls
  have hall : ∀ p ∈ pick hints r, ∃ a, decodeRow p.1 p.2 = .ok a := by
    intro p hp
    have hp' : p ∈ r := by
      unfold pick at hp
      split at hp
      · exact hp
      · exact (List.mem_filter.1 hp).1
    have := hd p.1
    rw [(AMap.mem_iff_get hn).1 (show (p.1, p.2) ∈ r from hp')] at this
    obtain ⟨a, _, ha⟩ := this
    exact ⟨a, ha⟩
  obtain ⟨o, hdec, hco⟩ := decodeRows_all hall (Obj.new CK_UNAVAILABLE_INFORMATION) (clsOk_new _ (by decide))
  refine ⟨o, ?_, hco, ?_⟩
  · unfold Db.fetchByUid
    have hbig : ¬ (hints.any (fun t => decide (¬ t < 2 ^ 32))) = true := by
      rw [List.any_eq_true]
      rintro ⟨t, ht, hx⟩
      have := hh t ht
      simp at hx
      omega
    rw [if_neg hbig, he]
    simp only
    have hf := filter_uid ok u
    rw [hr] at hf
    generalize db.objs.filter _ = x at hf ⊢
    have : rowsToObjects (if hints = [] then x
        else (x.map fun g => (g.1, g.2.filter fun r => hints.contains r.1)).filter fun g => !g.2.isEmpty) = .ok [o] := by
      have e1 : (if hints = [] then x
        else (x.map fun g => (g.1, g.2.filter fun r => hints.contains r.1)).filter fun g => !g.2.isEmpty).map Prod.snd =
          [((0 : Nat), pick hints r)].map Prod.snd := by
        cases x with
        | nil => cases hf
        | cons g x => cases x with
          | cons => simp at hf
          | nil =>
            have hg : g.2 = r := by simpa using hf
            unfold pick
            split
            · simp [hg]
            · rename_i hne
              obtain ⟨v, hv⟩ := hgc
              have hm : (CKA_CLASS, v) ∈ r.filter fun r => hints.contains r.1 := by
                rw [List.mem_filter]
                exact ⟨(AMap.mem_iff_get hn).2 hv, by simpa using hc hne⟩
              have hz : (r.filter fun r => hints.contains r.1) ≠ [] := List.ne_nil_of_mem hm
              have hz' : (r.filter fun r => hints.contains r.1).isEmpty = false := by simpa using hz
              simp only [List.map_cons, List.map_nil, List.filter_cons, List.filter_nil, hg, hz']
              rfl
      rw [rowsToObjects_snd e1]
      simp only [rowsToObjects, hdec]
      simp
    rw [this]
  · intro t
    have b := decodeRows_find (nodup_pick hn) hdec t
    rw [get_pick hn] at b
    have ht := hd t
    split
    · rename_i hin
      rw [if_pos hin] at b
      cases hx : AMap.get r t with
      | none =>
        rw [hx] at b ht
        simp only at b ht
        rw [b, ht]
        have : t ≠ CKA_CLASS := by rintro rfl; exact hcls ht
        unfold Obj.new Obj.find
        have hne : ((Attr.ofUlong CKA_CLASS CK_UNAVAILABLE_INFORMATION).typ == t) = false := by
          have e : (Attr.ofUlong CKA_CLASS CK_UNAVAILABLE_INFORMATION).typ = CKA_CLASS := rfl
          rw [e]; simpa using fun h => this h.symm
        rw [List.find?_cons, hne]
        rfl
      | some v =>
        rw [hx] at b ht
        obtain ⟨a, d1, f1⟩ := b
        obtain ⟨a', f2, d2⟩ := ht
        rw [d1] at d2; injection d2 with d2
        rw [f1, f2, d2]
    · rename_i hin
      rw [if_neg hin] at b
      simp only at b
      rw [b]
      have : t ≠ CKA_CLASS := by
        rintro rfl
        by_cases h0 : hints = []
        · exact hin (.inl h0)
        · exact hin (.inr (hc h0))
      unfold Obj.new Obj.find
      have hne : ((Attr.ofUlong CKA_CLASS CK_UNAVAILABLE_INFORMATION).typ == t) = false := by
        have e : (Attr.ofUlong CKA_CLASS CK_UNAVAILABLE_INFORMATION).typ = CKA_CLASS := rfl
        rw [e]; simpa using fun h => this h.symm
      rw [List.find?_cons, hne]
      rfl

/-- Objects with the same attributes. -/
structure SameAttrs (a b : Obj) : Prop where
  find : ∀ t, a.find t = b.find t
  cls : a.cls = b.cls

theorem SameAttrs.refl (a : Obj) : SameAttrs a a := ⟨fun _ => rfl, rfl⟩

theorem SameAttrs.setAttr {a b : Obj} (h : SameAttrs a b) (x : Attr) :
    (∃ a' b', a.setAttr x = .ok a' ∧ b.setAttr x = .ok b' ∧ SameAttrs a' b') ∨
    ∃ r, a.setAttr x = .error r ∧ b.setAttr x = .error r := by
  cases ha : a.setAttr x with
  | ok a' =>
    have hb : ∃ b', b.setAttr x = .ok b' ∧ b'.cls = a'.cls := by
      unfold Obj.setAttr at ha ⊢
      split at ha
      · rename_i hc
        rw [if_pos hc]
        split at ha
        · cases ha
        · injection ha with ha
          exact ⟨_, rfl, by rw [← ha]⟩
      · rename_i hc
        rw [if_neg hc]
        injection ha with ha
        exact ⟨_, rfl, by rw [← ha]; exact h.cls.symm⟩
    obtain ⟨b', hb, hcl⟩ := hb
    refine .inl ⟨a', b', rfl, hb, ⟨fun t => ?_, hcl.symm⟩⟩
    rw [find_setAttr ha, find_setAttr hb, h.find]
  | error r =>
    refine .inr ⟨r, rfl, ?_⟩
    unfold Obj.setAttr at ha ⊢
    split at ha
    · rename_i hc
      rw [if_pos hc]
      split at ha
      · rename_i hx; injection ha with ha; subst ha; rfl
      · cases ha
    · cases ha

theorem SameAttrs.factory {a b : Obj} (h : SameAttrs a b) : objFactory a = objFactory b :=
  objFactory_congr (h.find _) (h.find _) (h.find _)

variable {C : Crypto}

theorem SameAttrs.decrypt {a b : Obj} (h : SameAttrs a b) (e : Env) (ac : Aci) (u : Bytes) (ts : List Nat) (i : Nat) :
    (∃ a' b', decryptLoop C e ac u ts i a = .ok a' ∧ decryptLoop C e ac u ts i b = .ok b' ∧ SameAttrs a' b') ∨
    ∃ r, decryptLoop C e ac u ts i a = .error r ∧ decryptLoop C e ac u ts i b = .error r := by
  induction ts generalizing i a b with
  | nil => exact .inl ⟨a, b, rfl, rfl, h⟩
  | cons t ts ih =>
    unfold decryptLoop
    rw [h.find t]
    split
    · exact ih h _
    · split
      · exact .inr ⟨_, rfl, rfl⟩
      · rename_i p hp
        rcases h.setAttr (Attr.ofBytes t p) with ⟨a', b', e1, e2, h'⟩ | ⟨r, e1, e2⟩
        · rw [e1, e2]; exact ih h' _
        · rw [e1, e2]; exact .inr ⟨r, rfl, rfl⟩

/-- C_GetAttributeValue on objects that agree in what it looks at. -/
theorem getAttributes_congr {a b : Obj} {q : List OutAttr} (hc : a.cls = b.cls)
    (h : ∀ t, t ∈ q.map OutAttr.typ ∨ t = CKA_CLASS ∨ t = CKA_KEY_TYPE ∨ t = CKA_CERTIFICATE_TYPE ∨ t = CKA_SENSITIVE ∨
      t = CKA_EXTRACTABLE → a.find t = b.find t) :
    getObjectAttributes a q = getObjectAttributes b q := by
  have hF : objFactory a = objFactory b := objFactory_congr (h _ (by simp)) (h _ (by simp)) (h _ (by simp))
  have hs : a.isSensitive = b.isSensitive := by
    unfold Obj.isSensitive Obj.boolOr
    rw [hc, h CKA_SENSITIVE (by simp)]
  have hx : a.isExtractable = b.isExtractable := by
    unfold Obj.isExtractable Obj.boolOr
    rw [hc, h CKA_EXTRACTABLE (by simp)]
  have hl : ∀ fa s r, getLoop fa s a q r = getLoop fa s b q r := by
    have : ∀ t ∈ q.map OutAttr.typ, a.find t = b.find t := fun t ht => h t (.inl ht)
    clear h
    induction q with
    | nil => intro fa s r; rfl
    | cons x q ih =>
      intro fa s r
      unfold getLoop
      have e1 : getOne fa s a x = getOne fa s b x := by
        unfold getOne
        rw [this x.typ (by simp)]
      rw [e1]
      simp only
      rw [ih (fun t ht => this t (by simp only [List.map_cons]; exact .tail _ ht))]
  unfold getObjectAttributes
  rw [hF, hs, hx]
  simp only [hl]

end Kry

namespace Kry
open Spec
variable {C : Crypto}

/-- An object that has a factory was stored with its class. -/
theorem class_row {r : List (Nat × DbVal)} {hints : List Nat} {o : Obj} {F : Factory} (hn : (AMap.keys r).Nodup)
    (hd : decodeRows (Obj.new CK_UNAVAILABLE_INFORMATION) (pick hints r) = .ok o) (hF : objFactory o = .ok F) :
    ∃ v, AMap.get r CKA_CLASS = some v := by
  have key : ∃ v, AMap.get (pick hints r) CKA_CLASS = some v := by
    cases hx : AMap.get (pick hints r) CKA_CLASS with
    | some v => exact ⟨v, rfl⟩
    | none =>
      exfalso
      have := decodeRows_find (nodup_pick hn) hd CKA_CLASS
      rw [hx] at this
      unfold objFactory Obj.getUlong at hF
      rw [this] at hF
      have e2 : (Obj.new CK_UNAVAILABLE_INFORMATION).find CKA_CLASS =
        some (Attr.ofUlong CKA_CLASS CK_UNAVAILABLE_INFORMATION) := by decide +kernel
      rw [e2] at hF
      have e3 : (Attr.ofUlong CKA_CLASS CK_UNAVAILABLE_INFORMATION).toUlong = .ok CK_UNAVAILABLE_INFORMATION := by
        decide +kernel
      simp only [e3] at hF
      have e4 : ¬ CK_UNAVAILABLE_INFORMATION = CKO_CERTIFICATE := by decide +kernel
      have e5 : keyClass CK_UNAVAILABLE_INFORMATION = false := by decide +kernel
      rw [if_neg e4, e5] at hF
      have e6 : (match getFactory CK_UNAVAILABLE_INFORMATION 0 with | .ok _ => false | .error _ => true) = true := by
        decide +kernel
      simp only [Bool.false_eq_true, if_false] at hF
      rw [hF] at e6
      cases e6
  obtain ⟨v, hv⟩ := key
  rw [get_pick hn] at hv
  split at hv
  · exact ⟨v, hv⟩
  · cases hv

/-- The whole object as read decodes its rows. -/
theorem fetch_decodes {e : Env} {db : Db} {u : Bytes} {o : Obj} {F : Factory} (ok : TblOk db.objs)
    (h : db.fetchByUid e u [] = .ok o) (hF : objFactory o = .ok F) :
    ∃ r, rowsOf db.objs u = some r ∧ Decodes r o.find ∧ o.find CKA_CLASS ≠ none := by
  obtain ⟨r, hr, hn, _, hd⟩ := fetchByUid_ok ok h
  obtain ⟨v, hv⟩ := class_row hn hd hF
  have hdec : Decodes r o.find := by
    intro t
    have a := decodeRows_find (nodup_pick hn) hd t
    rw [get_pick hn, if_pos (.inl rfl)] at a
    cases hx : AMap.get r t with
    | none =>
      rw [hx] at a
      simp only at a ⊢
      rw [a]
      have : t ≠ CKA_CLASS := by rintro rfl; rw [hv] at hx; cases hx
      unfold Obj.new Obj.find
      have hne : ((Attr.ofUlong CKA_CLASS CK_UNAVAILABLE_INFORMATION).typ == t) = false := by
        have e : (Attr.ofUlong CKA_CLASS CK_UNAVAILABLE_INFORMATION).typ = CKA_CLASS := rfl
        rw [e]; simpa using fun h => this h.symm
      rw [List.find?_cons, hne]
      rfl
    | some v =>
      rw [hx] at a
      obtain ⟨x, d, f⟩ := a
      exact ⟨x, f, d⟩
  refine ⟨r, hr, hdec, ?_⟩
  have := hdec CKA_CLASS
  rw [hv] at this
  obtain ⟨a, ha, _⟩ := this
  rw [ha]; exact fun h => by cases h

/-- Reading the same attributes from two stores. -/
theorem fetch_same {a b : Store} (oka : TblOk a.db.objs) (okb : TblOk b.db.objs) (hc : a.aci = b.aci)
    {hs hs' : Handles} {n n' : Nat} {u : Bytes} (hg : hs.get n = some u) (hg' : hs'.get n' = some u)
    {r r' : List (Nat × DbVal)} (hr : rowsOf a.db.objs u = some r) (hr' : rowsOf b.db.objs u = some r')
    {f f' : Nat → Option Attr} (hd : Decodes r f) (hd' : Decodes r' f') (hcl : f CKA_CLASS ≠ none)
    {hints : List Nat} (hf : ∀ t, hints = [] ∨ t ∈ fetchHints hints → f t = f' t) (e : Env) :
    (∃ x y, a.fetch C e hs n hints = .ok x ∧ b.fetch C e hs' n' hints = .ok y ∧ SameAttrs x y) ∨
    ∃ k, a.fetch C e hs n hints = .error k ∧ b.fetch C e hs' n' hints = .error k := by
  have hf' : ∀ t, fetchHints hints = [] ∨ t ∈ fetchHints hints → f t = f' t := by
    intro t ht
    apply hf
    rcases ht with ht | ht
    · left
      by_cases h : hints = []
      · exact h
      · exact absurd ht (fetchHints_ne h)
    · exact .inr ht
  have hcm : fetchHints hints ≠ [] → CKA_CLASS ∈ fetchHints hints := by
    intro hne
    by_cases h : hints = []
    · rw [h] at hne; exact absurd rfl hne
    · exact (hints_types h).1
  have hcl' : f' CKA_CLASS ≠ none := by
    rw [← hf' CKA_CLASS]
    · exact hcl
    · by_cases h : fetchHints hints = []
      · exact .inl h
      · exact .inr (hcm h)
  unfold Store.fetch
  rw [hg, hg']
  simp only
  by_cases hbig : ∀ t ∈ fetchHints hints, t < 2 ^ 32
  · cases he : (e.sub 0).fails with
    | none =>
      obtain ⟨x, hx, hxc, hxf⟩ := fetchByUid_rows oka hr hd hcl he hbig hcm
      obtain ⟨y, hy, hyc, hyf⟩ := fetchByUid_rows okb hr' hd' hcl' he hbig hcm
      rw [hx, hy]
      simp only
      have hfind : ∀ t, x.find t = y.find t := by
        intro t
        rw [hxf, hyf]
        split
        · exact hf' t (by assumption)
        · rfl
      have same : SameAttrs x y := by
        refine ⟨hfind, ?_⟩
        obtain ⟨p, p1, p2⟩ := hxc
        obtain ⟨q, q1, q2⟩ := hyc
        rw [hfind, q1] at p1
        injection p1 with p1
        subst p1
        rw [p2] at q2
        injection q2
      rw [same.factory, hc]
      split
      · exact .inr ⟨_, rfl, rfl⟩
      · rename_i F hF
        by_cases henc : b.aci.encrypt = true
        · simp only [if_pos henc]
          rcases same.decrypt (C := C) (e.sub 1) b.aci u F.sensitive 0 with ⟨x', y', e1, e2, h⟩ | ⟨k, e1, e2⟩
          · rw [e1, e2]
            exact .inl ⟨_, _, rfl, rfl, ⟨h.find, h.cls⟩⟩
          · rw [e1, e2]
            exact .inr ⟨k, rfl, rfl⟩
        · simp only [if_neg henc]
          exact .inl ⟨_, _, rfl, rfl, ⟨same.find, same.cls⟩⟩
    | some k =>
      right
      unfold Db.fetchByUid
      rw [he]
      have hbig' : ¬ ((fetchHints hints).any (fun t => decide (¬ t < 2 ^ 32))) = true := by
        rw [List.any_eq_true]
        rintro ⟨t, ht, hx⟩
        have := hbig t ht
        simp at hx
        omega
      simp only [if_neg hbig']
      exact ⟨_, rfl, rfl⟩
  · right
    have : (fetchHints hints).any (fun t => decide (¬ t < 2 ^ 32)) = true := by
      simp only [List.any_eq_true]
      simp only [Classical.not_forall] at hbig
      obtain ⟨t, ht, hx⟩ := hbig
      exact ⟨t, ht, by simpa using hx⟩
    unfold Db.fetchByUid
    rw [if_pos this, if_pos this]
    exact ⟨_, rfl, rfl⟩

theorem decode_encodes {t : Nat} {v : DbVal} {a : Attr} (h : decodeRow t v = .ok a) : encodeAttr a ≠ .ok none := by
  have hk : a.atype ≠ .deny ∧ a.atype ≠ .ignore := by
    unfold decodeRow at h
    repeat' split at h
    all_goals first | (cases h; done) | (injection h with h; rw [← h]; exact ⟨(by intro h; cases h), (by intro h; cases h)⟩)
  intro he
  unfold encodeAttr at he
  split at he
  all_goals first | (repeat' split at he) | skip
  all_goals first | (cases he; done) | simp_all

/-- Writing an object back with some attributes changed leaves the others as they were. -/
theorem write_back {t t' : ObjTable} {u : Bytes} {o o1 : Obj} {r : List (Nat × DbVal)} (ok : TblOk t)
    (hd : Decodes r o.find) (hs : Sound o1) (h1 : uidCount o1.attrs ≤ 1) (hu : o1.getStr CKA_UNIQUE_ID = .ok u)
    (h : storeObject t u o1 = .ok t') :
    ∃ r' f', rowsOf t' u = some r' ∧ Decodes r' f' ∧ (∀ ty, o1.find ty = o.find ty → f' ty = o.find ty) ∧
      ∀ ty a, o1.find ty = some a → (f' ty = some a ∨ encodeAttr a = .ok none) := by
  obtain ⟨_, r', hp, hr⟩ := store_inv ok h1 hu h
  refine ⟨r', fun ty => match AMap.get r' ty with | none => none | some _ => o1.find ty, ?_, ?_, ?_, ?_⟩
  · rw [hr, if_pos rfl]
  · intro ty
    have := putRows_decode hs hp ty
    split
    · rename_i hx
      simp only [hx]
    · rename_i v hx
      rw [hx] at this
      simp only [hx]
      exact this
  · intro ty e
    have := putRows_decode hs hp ty
    simp only
    cases hx : AMap.get r' ty with
    | some v => exact e
    | none =>
      rw [hx] at this
      simp only at this ⊢
      rcases this with h0 | ⟨a, ha, hz⟩
      · rw [← e, h0]
      · exfalso
        rw [e] at ha
        have hdt := hd ty
        cases hy : AMap.get r ty with
        | none => rw [hy] at hdt; simp only at hdt; rw [ha] at hdt; cases hdt
        | some v =>
          rw [hy] at hdt
          obtain ⟨b, hb, hdec⟩ := hdt
          rw [ha] at hb
          injection hb with hb
          subst hb
          exact decode_encodes hdec hz
  · intro ty a ha
    have := putRows_decode hs hp ty
    simp only
    cases hx : AMap.get r' ty with
    | some v => exact .inl ha
    | none =>
      rw [hx] at this
      simp only at this
      rcases this with h0 | ⟨b, hb, hz⟩
      · rw [h0] at ha; cases ha
      · rw [hb] at ha; injection ha with ha; subst ha; exact .inr hz

end Kry
