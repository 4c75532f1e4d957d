import Verif.Props.C14
import Verif.Props.C49
import Verif.Proofs.KeyFacts

/-!
# One-way attributes along a history

As long as a handle means the same object, an attribute that C_SetAttributeValue may only move one way stays where it
is.  (Deduplication rewrites objects without asking; see `Props.C24`.)
-/

namespace Kry
open Spec

/-- The row of a boolean. -/
def boolRow (v : Bool) : DbVal := .int (if v then 1 else 0)

/-- The attribute is not there, or does not have the other value. -/
def Holds (o : Obj) (ty : Nat) (v : Bool) : Prop := o.getBool ty ≠ .ok (!v)

/-- What is known about the attribute `ty` of object `n`. -/
structure Keeps (ty : Nat) (v : Bool) (n : Nat) (t : Token) : Prop where
  ok : HOk t
  tbl : TblOk t.store.db.objs
  low : n < t.handles.next
  dd : t.cfg.dedup = none
  mem : ∀ o, AMap.get t.sess n = some o → Holds o ty v
  row : ∀ u r w, t.handles.get n = some u → AMap.get t.sess n = none → rowsOf t.store.db.objs u = some r →
    AMap.get r ty = some w → decodeRow ty w ≠ .ok (Attr.ofBool ty (!v))

/-- The primitives that leave the object alone. -/
theorem Keeps.alone {ty : Nat} {v : Bool} {n k : Nat} {D : Nat → Prop} {a b : Token} (h : Keeps ty v n a)
    (g : HGo k D a b) (tb : TblOk b.store.db.objs) (cf : b.cfg = a.cfg)
    (h1 : ∀ o, AMap.get b.sess n = some o → AMap.get a.sess n = some o)
    (h2 : ∀ u, b.handles.get n = some u → AMap.get b.sess n = none → AMap.get a.sess n = none)
    (h3 : ∀ u, b.handles.get n = some u → a.handles.get n = some u → AMap.get a.sess n = none →
      rowsOf b.store.db.objs u = rowsOf a.store.db.objs u) : Keeps ty v n b := by
  obtain ⟨ok, st⟩ := g h.ok
  refine ⟨ok, tb, Nat.lt_of_lt_of_le h.low st.hs.next, by rw [cf]; exact h.dd, fun o ho => h.mem o (h1 o ho), ?_⟩
  intro u r w hu hs hr hw
  have hu' := st.hs.old n u h.low hu
  have hs' := h2 u hu hs
  rw [h3 u hu hu' hs'] at hr
  exact h.row u r w hu' hs' hr hw

/-! ## Rows -/

theorem setList_mem {l : List Attr} {a b : Attr} (h : b ∈ Obj.setList l a) : b = a ∨ b ∈ l := by
  induction l with
  | nil => unfold Obj.setList at h; exact .inl (by simpa using h)
  | cons c l ih =>
    unfold Obj.setList at h
    split at h
    · rcases List.mem_cons.1 h with h | h
      · exact .inl h
      · exact .inr (.tail _ h)
    · rcases List.mem_cons.1 h with h | h
      · exact .inr (h ▸ .head _)
      · exact (ih h).imp id (.tail _)

theorem setAttr_mem {o o' : Obj} {a b : Attr} (h : o.setAttr a = .ok o') (hb : b ∈ o'.attrs) : b = a ∨ b ∈ o.attrs := by
  unfold Obj.setAttr at h
  repeat' split at h
  all_goals first
    | (cases h; done)
    | (injection h with h; rw [← h] at hb; exact setList_mem hb)

theorem setAllCk_mem {tm : Template} {o o' : Obj} {b : Attr} (h : setAllCk o tm = .ok o') (hb : b ∈ o'.attrs) :
    b ∈ o.attrs ∨ ∃ c ∈ tm, Attr.fromCk c = .ok b := by
  induction tm generalizing o with
  | nil => injection h with h; rw [← h] at hb; exact .inl hb
  | cons c tm ih =>
    unfold setAllCk at h
    split at h
    · cases h
    · rename_i a ha
      split at h
      · cases h
      · rename_i o1 h1
        rcases ih h with h | ⟨d, hd, h⟩
        · rcases setAttr_mem h1 h with h | h
          · exact .inr ⟨c, .head _, h ▸ ha⟩
          · exact .inl h
        · exact .inr ⟨d, .tail _ hd, h⟩

theorem decodeRows_mem {rows : List (Nat × DbVal)} {o o' : Obj} {b : Attr} (h : decodeRows o rows = .ok o')
    (hb : b ∈ o'.attrs) : b ∈ o.attrs ∨ ∃ p ∈ rows, decodeRow p.1 p.2 = .ok b := by
  induction rows generalizing o with
  | nil => injection h with h; rw [← h] at hb; exact .inl hb
  | cons p rows ih =>
    obtain ⟨t1, v1⟩ := p
    unfold decodeRows at h
    split at h
    · cases h
    · rename_i a ha
      split at h
      · cases h
      · rename_i o1 h1
        rcases ih h with h | ⟨d, hd, h⟩
        · rcases setAttr_mem h1 h with h | h
          · exact .inr ⟨_, .head _, h ▸ ha⟩
          · exact .inl h
        · exact .inr ⟨d, .tail _ hd, h⟩

theorem delAll_mem {l : List Nat} {o : Obj} {b : Attr} (h : b ∈ (delAll o l).attrs) : b ∈ o.attrs := by
  unfold delAll at h
  induction l generalizing o with
  | nil => exact h
  | cons x l ih =>
    have := ih (o := o.delAttr x) h
    unfold Obj.delAttr at this
    exact (List.mem_filter.1 this).1

theorem encFold_mem {t : Nat} {as : List Attr} {acc : Option DbVal} {w : DbVal} (h : as.foldl (encFold t) acc = some w) :
    acc = some w ∨ ∃ a ∈ as, a.typ = t ∧ encodeAttr a = .ok (some w) := by
  induction as generalizing acc with
  | nil => exact .inl h
  | cons a as ih =>
    rw [List.foldl_cons] at h
    rcases ih h with h | ⟨b, hb, h⟩
    · unfold encFold at h
      split at h
      · rename_i ht
        split at h
        · rename_i he
          injection h with h
          subst h
          exact .inr ⟨a, .head _, ht, he⟩
        · exact .inl h
      · exact .inl h
    · exact .inr ⟨b, .tail _ hb, h⟩

theorem replaceFirst_keep {tm : Template} {t : Nat} {x : Bytes} {c : CkAttr} (h : c ∈ replaceFirst tm t x)
    (hc : c.typ ≠ t) : c ∈ tm := by
  induction tm with
  | nil =>
    unfold replaceFirst at h
    rw [List.mem_singleton] at h
    rw [h] at hc; exact absurd rfl hc
  | cons d tm ih =>
    unfold replaceFirst at h
    split at h
    · rcases List.mem_cons.1 h with h | h
      · rw [h] at hc; exact absurd rfl hc
      · exact .tail _ h
    · rcases List.mem_cons.1 h with h | h
      · exact h ▸ .head _
      · exact .tail _ (ih h)

variable {C : Crypto}

theorem updateEncrypt_keep {e : Env} {a : Aci} {uid : Bytes} {ts : List Nat} {i : Nat} {tm tm' : Template}
    (h : updateEncrypt C e a uid ts i tm = .ok tm') {c : CkAttr} (hc : c ∈ tm') (ht : c.typ ∉ ts) : c ∈ tm := by
  induction ts generalizing i tm with
  | nil => injection h with h; rw [h]; exact hc
  | cons x ts ih =>
    have hx : c.typ ∉ ts := fun h => ht (.tail _ h)
    unfold updateEncrypt at h
    split at h
    · exact ih h hx
    · split at h
      · cases h
      · exact replaceFirst_keep (ih h hx) (fun e => ht (e ▸ .head _))

theorem decodeRow_boolRow {ty : Nat} {v : Bool} {a : Attr} (hk : attrKind ty = some .bool)
    (h : decodeRow ty (boolRow v) = .ok a) : a = Attr.ofBool ty v := by
  unfold decodeRow boolRow at h
  rw [hk] at h
  simp only at h
  injection h with h
  rw [← h]
  cases v <;> rfl

theorem decodeRow_isBool {ty : Nat} {w : DbVal} {a : Attr} (hk : attrKind ty = some .bool)
    (h : decodeRow ty w = .ok a) : ∃ x, a = Attr.ofBool ty x := by
  unfold decodeRow at h
  rw [hk] at h
  simp only at h
  split at h
  · injection h with h; exact ⟨_, h.symm⟩
  · cases h

theorem ofBool_inj {ty : Nat} {x y : Bool} (h : Attr.ofBool ty x = Attr.ofBool ty y) : x = y := by
  unfold Attr.ofBool at h
  cases x <;> cases y <;> first | rfl | (injection h with _ _ h; simp at h)

theorem encode_ofBool (ty : Nat) (v : Bool) : encodeAttr (Attr.ofBool ty v) = .ok (some (boolRow v)) := by
  cases v <;> rfl

/-- An accepted C_SetAttributeValue on the object itself leaves its row. -/
theorem update_row {ty : Nat} {v : Bool} (hk : attrKind ty = some .bool) (hcl : ty ≠ CKA_CLASS)
    (hs : allFactories (fun F => !F.sensitive.contains ty) = true)
    {e : Env} {s : Store} {h : Handles} {n : Nat} {tm : Template} (ok : TblOk s.db.objs)
    (hu : ∀ c ∈ tm, c.typ ≠ CKA_UNIQUE_ID)
    (ht : ∀ c ∈ tm, c.typ = ty → ∀ a, Attr.fromCk c = .ok a → a = Attr.ofBool ty v)
    {u : Bytes} (hg : h.get n = some u)
    (h0 : ∀ r w, rowsOf s.db.objs u = some r → AMap.get r ty = some w → decodeRow ty w ≠ .ok (Attr.ofBool ty (!v))) :
    ∀ r w, rowsOf (s.update C e h n tm).2.db.objs u = some r → AMap.get r ty = some w →
      decodeRow ty w ≠ .ok (Attr.ofBool ty (!v)) := by
  rcases update_store (C := C) e s h n tm ok hu with ⟨h1, _⟩ | ⟨u', o, F, tm', o1, t', hg', hf, hF, htm, ho, z, hu', hst, h1⟩
  · rw [h1]; exact h0
  · rw [hg] at hg'
    injection hg' with hg'
    subst hg'
    rw [h1]
    obtain ⟨_, rows, hp, hr⟩ := store_inv ok z hu' hst
    intro r w hr' hw
    have hr' : rowsOf t' u = some r := hr'
    rw [hr, if_pos rfl] at hr'
    injection hr' with hr'
    subst hr'
    rw [(get_putRows (rows := []) List.nodup_nil hp).2 ty] at hw
    rcases encFold_mem hw with hw | ⟨a, ha, hta, hea⟩
    · cases hw
    · have : a = Attr.ofBool ty v := by
        rcases setAllCk_mem ho (delAll_mem ha) with h | ⟨c, hc, h⟩
        · obtain ⟨r, hr0, hnd, _, hd⟩ := fetchByUid_ok ok hf
          rcases decodeRows_mem hd h with h | ⟨p, hp, h⟩
          · unfold Obj.new at h
            rw [List.mem_singleton] at h
            rw [h] at hta
            exact absurd hta.symm hcl
          · have hpt := decodeRow_typ h
            rw [hta] at hpt
            have hp : p ∈ r := by unfold pick at hp; simpa using hp
            have := h0 r p.2 hr0 (by rw [hpt]; exact AMap.get_of_mem hnd hp)
            rw [← hpt] at h
            obtain ⟨x, hx⟩ := decodeRow_isBool hk h
            subst hx
            congr 1
            by_cases hxv : x = v
            · exact hxv
            · exfalso
              refine this (h.trans ?_)
              congr 2
              cases x <;> cases v <;> simp_all
        · have htc := fromCk_typ h
          rw [hta] at htc
          refine ht c ?_ htc.symm a h
          split at htm
          · refine updateEncrypt_keep htm hc ?_
            obtain ⟨k, hm⟩ := objFactory_mem hF
            have := allFactories_spec hs hm
            rw [← htc]
            simpa using this
          · injection htm with htm
            rw [htm]; exact hc
      rw [this, encode_ofBool] at hea
      injection hea with hea
      injection hea with hea
      subst hea
      intro hd
      have := ofBool_inj (decodeRow_boolRow hk hd)
      cases v <;> cases this

/-! ## The primitives -/

/-- Boolean attributes with a one-way rule, outside the attributes that identify an object. -/
structure OneWay (ty : Nat) (v : Bool) : Prop where
  guard : allFactories (guarded ty v) = true
  kind : attrKind ty = some .bool
  plain : allFactories (fun F => !F.sensitive.contains ty) = true
  cls : ty ≠ CKA_CLASS
  uid : ty ≠ CKA_UNIQUE_ID
  als : ty ≠ CKA_ALWAYS_SENSITIVE
  nev : ty ≠ CKA_NEVER_EXTRACTABLE

theorem OneWay.set {ty : Nat} {v : Bool} (w : OneWay ty v) {o : Obj} {F : Factory} {tm : Template} (hF : objFactory o = .ok F)
    (hck : checkSetAttributes F.attrs tm = .ok ()) :
    ∀ c ∈ tm, c.typ = ty → ∀ a, Attr.fromCk c = .ok a → a = Attr.ofBool ty v := by
  obtain ⟨k, hmem⟩ := objFactory_mem hF
  have hgF := allFactories_spec w.guard hmem
  intro c hc ht a ha
  obtain ⟨f, hf, _, hun⟩ := checkSetAttributes_ok hck c hc
  rw [ht] at hf
  obtain ⟨g1, g2, g3, _⟩ := guarded_spec hgF hf
  obtain ⟨_, b, hb, hbit⟩ := hun g2
  have := fromCk_bool (by rw [ht]; exact w.kind) hb ha
  rw [this, ht]
  cases v <;> cases b <;> simp_all

theorem OneWay.holds {ty : Nat} {v : Bool} (w : OneWay ty v) {o : Obj} {F : Factory} {tm : Template}
    (hF : objFactory o = .ok F) (h : Holds o ty v) : Holds (setObjectAttributes F o tm).2 ty v := by
  unfold setObjectAttributes
  split
  · exact h
  split
  · exact h
  rename_i hck
  unfold Holds Obj.getBool at h ⊢
  rcases applyTemplate_find ty (fun a => a = Attr.ofBool ty v) tm o (w.set hF hck) with e | ⟨a, ha, e⟩
  · rw [e]; exact h
  · rw [ha, e]
    simp only [Attr.toBool, Attr.ofBool]
    cases v <;> simp

section
variable {k : Nat} {D : Nat → Prop} {ty : Nat} {v : Bool} {n : Nat}

theorem Keeps.hs {a b : Token} (h : Keeps ty v n a) (g : HGo k D a b) (tb : TblOk b.store.db.objs) (cf : b.cfg = a.cfg)
    (e1 : b.sess = a.sess) (e2 : b.store.db.objs = a.store.db.objs) : Keeps ty v n b :=
  h.alone g tb cf (fun _ ho => by rw [← e1]; exact ho) (fun _ _ ho => by rw [← e1]; exact ho) (fun _ _ _ _ => by rw [e2])

theorem insert_sess (a : Token) (e : Env) (k : Nat) (o : Obj) :
    ((a.insertObject C e k o).2.sess = a.sess ∨
      ∃ o', (a.insertObject C e k o).2.sess = AMap.insert a.sess a.handles.next o') ∧
    (o.isToken = false → (a.insertObject C e k o).2.store = a.store) := by
  unfold Token.insertObject
  by_cases ht : o.isToken = true
  · rw [if_pos ht]
    refine ⟨?_, fun h => by rw [ht] at h; cases h⟩
    split <;> exact .inl rfl
  · rw [if_neg ht]
    have hb : a.handles.bump.1 = a.handles.next := rfl
    simp only [hb]
    split
    · exact ⟨.inl rfl, fun _ => rfl⟩
    · split
      · exact ⟨.inl rfl, fun _ => rfl⟩
      · exact ⟨.inr ⟨_, rfl⟩, fun _ => rfl⟩

theorem keeps_insert (D : Nat → Prop) {a : Token} (e : Env) (o : Obj) (hz : Zero o) (h : Keeps ty v n a)
    (tb : TblOk (a.insertObject C e k o).2.store.db.objs) : Keeps ty v n (a.insertObject C e k o).2 := by
  have hse := insert_sess (C := C) a e k o
  have hlow := h.low
  refine h.alone (D := D) (go_insert e a o hz) tb (insertObject_same e a k o).cfg ?_ ?_ ?_
  · intro x hx
    rcases hse.1 with h1 | ⟨o', h1⟩
    · rw [← h1]; exact hx
    · rw [h1, AMap.get_insert, if_neg (by omega)] at hx
      exact hx
  · intro u _ hx
    rcases hse.1 with h1 | ⟨o', h1⟩
    · rw [← h1]; exact hx
    · rw [h1, AMap.get_insert, if_neg (by omega)] at hx
      exact hx
  · intro u _ hu hs
    by_cases ht : o.isToken = true
    · unfold Token.insertObject
      rw [if_pos ht]
      split
      · rfl
      · rcases store_shape (C := C) e a.store a.handles o hz.handle with
          ⟨r, h'⟩ | ⟨F, uid, x, hF, huid, hx, ⟨r, _, h'⟩ | ⟨hins, r, _, h'⟩⟩
        · simp only [h']
        · simp only [h']
        · simp only [h']
          have hfree := ((hs_insert (D := D) h.ok.hs uid).2.2.2.1 hins).2
          have hne : uid ≠ u := by
            intro he
            subst he
            exact getByUid_none hfree (List.mem_map.2 ⟨_, AMap.get_mem hu, rfl⟩)
          have hxu : x.find CKA_UNIQUE_ID = o.find CKA_UNIQUE_ID ∧ Zero x := by
            split at hx
            · exact ⟨encryptLoop_find hx (uid_notIn hF).1, encryptLoop_zero hx hz⟩
            · injection hx with hx
              rw [← hx]; exact ⟨rfl, hz⟩
          refine storeObj_move (P := fun t' => rowsOf t' u = rowsOf a.store.db.objs u) rfl ?_
          intro u' t' hu' hst
          have hzd := zero_delAll (l := F.ephemeral) hxu.2
          have : u' = uid := by
            unfold Obj.getStr at hu' huid
            rw [find_delAll, if_neg (uid_notIn hF).2, hxu.1] at hu'
            rw [hu'] at huid
            injection huid
          subst this
          obtain ⟨_, rows, _, hr⟩ := store_inv h.tbl hzd.uid hu' hst
          rw [hr, if_neg hne]
    · rw [hse.2 (by simpa using ht)]

theorem keeps_destroy (k : Nat) {a : Token} (e : Env) (m : Nat) (hd : D m) (h : Keeps ty v n a)
    (tb : TblOk (a.destroyObject C e m).2.store.db.objs) : Keeps ty v n (a.destroyObject C e m).2 := by
  have cf : (a.destroyObject C e m).2.cfg = a.cfg := by
    unfold Token.destroyObject
    repeat' split
    all_goals rfl
  refine h.alone (k := k) (D := D) (go_destroy e m a hd) tb cf ?_ ?_ ?_
  · intro x hx
    unfold Token.destroyObject at hx
    repeat' split at hx
    all_goals first
      | exact hx
      | (simp only [AMap.get_erase] at hx
         split at hx
         · cases hx
         · exact hx)
  · intro u hu hx
    unfold Token.destroyObject at hu hx
    split at hx
    · rename_i o ho
      simp only [ho] at hu
      split at hx
      · exact hx
      · rename_i hdes
        rw [if_neg hdes] at hu
        simp only [AMap.get_erase] at hx
        have hu : (a.handles.remove m).get n = some u := hu
        rw [get_remove] at hu
        split at hx
        · rename_i hm
          rw [if_pos hm] at hu; cases hu
        · exact hx
    · repeat' split at hx
      all_goals exact hx
  · intro u hu hu' hs
    unfold Token.destroyObject at hu ⊢
    split
    · split <;> rfl
    · rename_i hm
      simp only [hm] at hu
      split
      · rfl
      · rename_i o hf
        simp only [hf] at hu
        split
        · rfl
        · rename_i hdes
          rw [if_neg hdes] at hu
          have hu : (a.handles.remove m).get n = some u := hu
          rw [get_remove] at hu
          split at hu
          · cases hu
          rename_i hne
          simp only [Store.remove]
          split
          · rfl
          · rename_i um hum
            unfold Db.removeByUid
            split
            · rfl
            · simp only
              rw [rowsOf_delete h.tbl, if_neg]
              intro he
              subst he
              exact hne (h.ok.hs.inj hum hu')

theorem keeps_remove {a b : Token} (l : List Nat) (h : Keeps ty v n a) (g : HGo k D a b)
    (cf : b.cfg = a.cfg) (ho : b.store.db.objs = a.store.db.objs) (h1 : b.sess = l.foldl AMap.erase a.sess)
    (h2 : b.handles = l.foldl Handles.remove a.handles) : Keeps ty v n b := by
  refine h.alone g (by rw [ho]; exact h.tbl) cf ?_ ?_ ?_
  · intro o hx
    rw [h1, get_eraseAll] at hx
    split at hx
    · cases hx
    · exact hx
  · intro u hu hx
    rw [h2, get_removeAll] at hu
    rw [h1, get_eraseAll] at hx
    split at hu
    · cases hu
    · rename_i hn
      rwa [if_neg hn] at hx
  · intro u _ _ _; rw [ho]

theorem keeps_logout {a : Token} (e : Env)
    (hd : a.logged ≠ none → ∀ n o, AMap.get a.sess n = some o → o.session ≠ 0 → o.isPrivate = true → D n)
    (k : Nat) (h : Keeps ty v n a) : Keeps ty v n (a.logout e).2 := by
  have g := go_logout (k := k) (D := D) e a hd
  have cf := (logout_sameI e a).cfg
  have ho := logout_objs e a
  unfold Token.logout at g cf ho ⊢
  cases hl : a.logged with
  | none => simp only; exact h
  | some u =>
    simp only [hl] at g cf ho ⊢
    refine keeps_remove ((a.sess.filter fun p => p.2.session ≠ 0 ∧ p.2.isPrivate = true).map Prod.fst) h g cf ho ?_ ?_
    · split <;> rfl
    · split <;> rfl

theorem keeps_setAttrs (w : OneWay ty v) {a : Token} (e : Env) (m : Nat) (tm : Template) (k : Nat) (D : Nat → Prop)
    (h : Keeps ty v n a) (tb : TblOk (a.setObjectAttrs C e m tm).2.store.db.objs) :
    Keeps ty v n (a.setObjectAttrs C e m tm).2 := by
  have g := go_setAttrs (C := C) (k := k) (D := D) e m tm a
  by_cases hm : n = m
  · subst hm
    obtain ⟨ok, st⟩ := g h.ok
    refine ⟨ok, tb, Nat.lt_of_lt_of_le h.low st.hs.next, ?_, ?_, ?_⟩
    · have : (a.setObjectAttrs C e n tm).2.cfg = a.cfg := by
        unfold Token.setObjectAttrs
        repeat' split
        all_goals rfl
      rw [this]; exact h.dd
    · intro o ho
      unfold Token.setObjectAttrs at ho
      split at ho
      · rename_i o1 h1
        split at ho
        · exact h.mem o ho
        · rename_i F hF
          simp only [AMap.get_modify, if_pos, h1] at ho
          injection ho with ho
          rw [← ho]
          exact w.holds hF (h.mem o1 h1)
      · rename_i h1
        have : AMap.get a.sess n = some o := by
          repeat' split at ho
          all_goals exact ho
        rw [h1] at this; cases this
    · intro u r x hu hs hr hx
      unfold Token.setObjectAttrs at hu hs hr
      split at hr
      · rename_i o1 h1
        simp only [h1] at hs
        split at hs
        · rw [h1] at hs; cases hs
        · simp only [AMap.get_modify, if_pos, h1] at hs; cases hs
      · rename_i h1
        simp only [h1] at hu hs
        have hu : a.handles.get n = some u := by
          repeat' split at hu
          all_goals exact hu
        split at hr
        · exact h.row u r x hu h1 hr hx
        split at hr
        · exact h.row u r x hu h1 hr hx
        split at hr
        · exact h.row u r x hu h1 hr hx
        rename_i F hF
        split at hr
        · exact h.row u r x hu h1 hr hx
        split at hr
        · exact h.row u r x hu h1 hr hx
        rename_i hck
        exact update_row w.kind w.cls w.plain h.tbl (checkSet_noUid hF hck) (w.set hF hck) hu
          (fun r w => h.row u r w hu h1) r x hr hx
  · have al := setAttrs_alike (C := C) e m tm a h.ok.hs h.tbl
    have cf : (a.setObjectAttrs C e m tm).2.cfg = a.cfg := by
      unfold Token.setObjectAttrs
      repeat' split
      all_goals rfl
    refine h.alone g tb cf ?_ ?_ ?_
    · intro o ho; rw [← al.sess n hm]; exact ho
    · intro u _ ho; rw [← al.sess n hm]; exact ho
    · intro u _ hu _; exact al.rows n u hm hu

theorem keeps_pin {a b : Token} (h : Keeps ty v n a) (e1 : b.sess = a.sess ∧ b.handles = a.handles) (cf : b.cfg = a.cfg)
    (e2 : b.store.db.objs = a.store.db.objs) : Keeps ty v n b :=
  h.hs (k := 0) (D := fun _ => True) (.of_eq e1.1 e1.2) (by rw [e2]; exact h.tbl) cf e1.1 e2

theorem keeps_changePin {a : Token} (e : Env) (s : Session) (old new : Bytes) (h : Keeps ty v n a) :
    Keeps ty v n (fnSetPin C e s a old new).2 := by
  unfold fnSetPin
  split
  · exact h
  split
  · exact h
  split
  · exact h
  split
  · exact keeps_pin h (setPin_hs _ _ _ _ _) (setPin_same _ _ _ _ _).cfg (setPin_objs _ _ _ _ _)
  · have x : Keeps ty v n (a.login C (e.sub 0) CKU_USER old).2 :=
      keeps_pin h (login_hs _ _ _ _) (login_sameI _ _ _ _).cfg (login_objs _ _ _ _)
    generalize a.login C (e.sub 0) CKU_USER old = p at x ⊢
    obtain ⟨r, t1⟩ := p
    cases r with
    | error r => exact x
    | ok _ =>
      simp only at x ⊢
      have y : Keeps ty v n (t1.setPin C (e.sub 1) none new old).2 :=
        keeps_pin x (setPin_hs _ _ _ _ _) (setPin_same _ _ _ _ _).cfg (setPin_objs _ _ _ _ _)
      generalize t1.setPin C (e.sub 1) none new old = q at y ⊢
      obtain ⟨r, t2⟩ := q
      simp only at y ⊢
      have z := keeps_logout (D := fun _ => True) (e.sub 2) (fun _ _ _ _ _ _ => trivial) 0 y
      generalize t2.logout (e.sub 2) = c at z ⊢
      obtain ⟨r', t3⟩ := c
      exact z

theorem keeps_prim (w : OneWay ty v) {N : Obj → Prop} {a b : Token} (x : TPrim C k D N False W a b) (h : Keeps ty v n a) :
    Keeps ty v n b := by
  have tb := (prim_move x h.tbl).ok h.tbl
  have g := go_prim x
  cases x with
  | act x =>
    cases x with
    | insert e o t hz => exact keeps_insert D e o hz h tb
    | destroy e m t hd => exact keeps_destroy k e m hd h tb
    | setAttrs e m tm => exact keeps_setAttrs w e m tm k D h tb
    | search e tm => exact h.hs g tb rfl rfl rfl
    | update e m tm t hl hu hdd => exact absurd h.dd hdd
    | initPin e pin =>
      unfold fnInitPin at tb g ⊢
      split
      · exact h
      · exact keeps_pin h (setPin_hs _ _ _ _ _) (setPin_same _ _ _ _ _).cfg (setPin_objs _ _ _ _ _)
    | changePin e s old new t hp hd => exact keeps_changePin e s old new h
  | login e ut pin => exact keeps_pin h (login_hs _ _ _ _) (login_sameI _ _ _ _).cfg (login_objs _ _ _ _)
  | logout e t hd => exact keeps_logout (D := D) e hd k h
  | drop s t hd => exact keeps_remove _ h g rfl rfl rfl rfl
  | initTok e pin l t hi => exact hi.elim

theorem keeps_path (w : OneWay ty v) {N : Obj → Prop} {a b : Token} (x : TPath C k D N False W a b) (h : Keeps ty v n a) :
    Keeps ty v n b := TPath.inv (fun _ _ y z => keeps_prim w y z) x h

end

/-! ## The machine -/

variable {M : Mechs} {O : Oracle}

/-- `Keeps` for a slot. -/
def Held (ty : Nat) (v : Bool) (i n : Nat) (s : St) : Prop :=
  ∃ sl, AMap.get s.slots i = some sl ∧ Keeps ty v n sl.token

theorem held_step {ty : Nat} {v : Bool} (w : OneWay ty v) {e : Env} {s : St} {c : Call} {i n : Nat} (hi : Inv s)
    (hc : calm i c = true) (h : Held ty v i n s) : Held ty v i n (step M C O e s c).2 := by
  obtain ⟨sl, hs, h⟩ := h
  have h1 : c ≠ .finalize := by intro h; subst h; cases hc
  have h2 : c ≠ .crash := by intro h; subst h; cases hc
  obtain ⟨sl', h3, h4⟩ := step_path (M := M) (C := C) (O := O) (e := e) hi hs h1 h2
  refine ⟨sl', h3, keeps_path w (h4.strip ?_) h⟩
  rintro ⟨pin, l, rfl⟩
  simp [calm] at hc

theorem held_run {ty : Nat} {v : Bool} (w : OneWay ty v) (tr : Trace) {s : St} {i n : Nat} (hi : Inv s)
    (hc : ∀ p ∈ tr, calm i p.2 = true) (h : Held ty v i n s) : Held ty v i n (run M C O s tr) := by
  induction tr generalizing s with
  | nil => exact h
  | cons p tr ih =>
    exact ih (inv_step (C := C) M O p.1 s p.2 hi) (fun q hq => hc q (.tail _ hq)) (held_step w hi (hc p (.head _)) h)

end Kry
