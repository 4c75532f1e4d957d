import Verif.Spec.Objects
import Verif.Model.State
import Verif.Proofs.AMap

/-!
# What a call on a session can do to its token

Every call that names a session changes the token only through a handful of primitives.  `TAct` lists
them; the theorems at the end show that each call is a finite sequence of them, so that an invariant of
the primitives is an invariant of all calls.
-/

namespace Kry

/-- How often an attribute list has a unique id. -/
def uidCount (l : List Attr) : Nat := (l.filter fun a => a.typ == CKA_UNIQUE_ID).length

theorem uidCount_setList (l : List Attr) (a : Attr) (h : uidCount l ≤ 1) : uidCount (Obj.setList l a) ≤ 1 := by
  unfold uidCount at *
  induction l with
  | nil => unfold Obj.setList; exact List.length_filter_le _ _
  | cons b l ih =>
    unfold Obj.setList
    split
    · rename_i e
      simp only [List.filter_cons, e] at h ⊢
      split <;> simp_all
    · rename_i e
      simp only [List.filter_cons] at h ⊢
      by_cases hb : b.typ == CKA_UNIQUE_ID
      · have ha : (a.typ == CKA_UNIQUE_ID) = false := by
          cases hx : (a.typ == CKA_UNIQUE_ID) with
          | false => rfl
          | true => simp at hb hx; exact absurd (hb.trans hx.symm) e
        simp only [hb, if_true, List.length_cons] at h ⊢
        have hz : ∀ m : List Attr, (m.filter fun a => a.typ == CKA_UNIQUE_ID).length = 0 →
            ((Obj.setList m a).filter fun a => a.typ == CKA_UNIQUE_ID).length = 0 := by
          intro m
          induction m with
          | nil => intro _; simp [Obj.setList, ha]
          | cons c m ihm =>
            intro hm
            unfold Obj.setList
            simp only [List.filter_cons] at hm
            split
            · split at hm
              · cases hm
              · simp only [List.filter_cons, ha]; exact hm
            · split at hm
              · cases hm
              · rename_i hc
                simp only [List.filter_cons, hc]; exact ihm hm
        have := hz l (by omega)
        omega
      · simp only [hb] at h ⊢
        exact ih h

theorem uidCount_push (o : Obj) (a : Attr) (h : uidCount o.attrs ≤ 1)
    (hn : o.find a.typ = none ∨ a.typ ≠ CKA_UNIQUE_ID) : uidCount (o.push a).attrs ≤ 1 := by
  unfold uidCount Obj.push at *
  simp only [List.filter_append, List.length_append]
  by_cases e : a.typ = CKA_UNIQUE_ID
  · rcases hn with hn | hn
    · rw [e] at hn
      unfold Obj.find at hn
      rw [List.find?_eq_none] at hn
      have : (o.attrs.filter fun a => a.typ == CKA_UNIQUE_ID) = [] := by
        rw [List.filter_eq_nil_iff]; exact hn
      rw [this]
      have := List.length_filter_le (fun a : Attr => a.typ == CKA_UNIQUE_ID) [a]
      simp at this ⊢; exact this
    · exact absurd e hn
  · simp [e]; exact h

theorem uidCount_oneUid (l : List Attr) : uidCount (oneUid l) ≤ 1 := by
  unfold uidCount
  induction l with
  | nil => exact Nat.zero_le _
  | cons a l ih =>
    unfold oneUid
    split
    · rename_i e
      simp [e, List.filter_filter]
    · rename_i e
      simpa [List.filter_cons, e] using ih

/-- A new object: no handle, no session yet, and at most one unique id. -/
structure Zero (o : Obj) : Prop where
  handle : o.handle = 0
  session : o.session = 0
  uid : uidCount o.attrs ≤ 1

theorem zero_fresh (o : Obj) : Zero (fresh o) := ⟨rfl, rfl, uidCount_oneUid _⟩

/-- What a call is allowed: to touch PINs, which attributes of which objects to set, and to search. -/
structure Lic where
  pin : Prop
  wr : Nat → Template → Prop
  find : Prop

def Lic.all : Lic := ⟨True, fun _ _ => True, True⟩
def Lic.noPin : Lic := ⟨False, fun _ _ => True, True⟩

/-- A primitive change of a token by a call on session `h`; only handles in `D` are removed,
added objects satisfy `N`, PINs change only if `Z.pin`, attributes are set only as `Z.wr` says, and
the database is searched only if `Z.find`. -/
inductive TAct (C : Crypto) (Z : Lic) (h : Nat) (D : Nat → Prop) (N : Obj → Prop) : Token → Token → Prop where
  | insert (e : Env) (o : Obj) (t : Token) (hz : Zero o) (hn : N o) :
      TAct C Z h D N t (t.insertObject C e h o).2
  | destroy (e : Env) (n : Nat) (t : Token) (hd : D n) : TAct C Z h D N t (t.destroyObject C e n).2
  | setAttrs (e : Env) (n : Nat) (tm : Template) (t : Token) (hw : Z.wr n tm) : TAct C Z h D N t (t.setObjectAttrs C e n tm).2
  | search (e : Env) (tm : Template) (t : Token) (hf : Z.find) :
      TAct C Z h D N t { t with handles := (t.store.search e t.handles tm).2 }
  | update (e : Env) (n : Nat) (tm : Template) (t : Token) (hl : t.loggedIn = true)
      (hu : ∀ c ∈ tm, c.typ ≠ CKA_UNIQUE_ID) (hdd : t.cfg.dedup ≠ none) :
      TAct C Z h D N t { t with store := (t.store.update C e t.handles n tm).2 }
  | initPin (e : Env) (pin : Bytes) (t : Token) (hp : Z.pin) : TAct C Z h D N t (fnInitPin C e t pin).2
  | changePin (e : Env) (s : Session) (old new : Bytes) (t : Token) (hp : Z.pin)
      (hd : t.logged = none → ∀ n o, AMap.get t.sess n = some o → o.session ≠ 0 → o.isPrivate = true → D n) :
      TAct C Z h D N t (fnSetPin C e s t old new).2

/-- A finite sequence of primitive changes. -/
inductive TActs (C : Crypto) (Z : Lic) (h : Nat) (D : Nat → Prop) (N : Obj → Prop) : Token → Token → Prop where
  | refl (t : Token) : TActs C Z h D N t t
  | tail {a b c : Token} : TActs C Z h D N a b → TAct C Z h D N b c → TActs C Z h D N a c

theorem TAct.acts {C : Crypto} {Z : Lic} {h : Nat} {D : Nat → Prop} {N : Obj → Prop} {a b : Token} (x : TAct C Z h D N a b) : TActs C Z h D N a b :=
  .tail (.refl a) x

theorem TActs.trans {C : Crypto} {Z : Lic} {h : Nat} {D : Nat → Prop} {N : Obj → Prop} {a b c : Token} (x : TActs C Z h D N a b) (y : TActs C Z h D N b c) :
    TActs C Z h D N a c := by
  induction y with
  | refl => exact x
  | tail _ z ih => exact .tail ih z

/-- Lifting an invariant of the primitives. -/
theorem TActs.inv {C : Crypto} {Z : Lic} {h : Nat} {D : Nat → Prop} {N : Obj → Prop} {P : Token → Prop}
    (hp : ∀ a b, TAct C Z h D N a b → P a → P b) {a b : Token} (x : TActs C Z h D N a b) (ha : P a) : P b := by
  induction x with
  | refl => exact ha
  | tail _ z ih => exact hp _ _ z ih

/-- Lifting a reflexive and transitive relation of the primitives. -/
theorem TActs.rel {C : Crypto} {Z : Lic} {h : Nat} {D : Nat → Prop} {N : Obj → Prop} {R : Token → Token → Prop} (hr : ∀ a, R a a)
    (ht : ∀ a b c, R a b → R b c → R a c) (hp : ∀ a b, TAct C Z h D N a b → R a b) {a b : Token}
    (x : TActs C Z h D N a b) : R a b := by
  induction x with
  | refl => exact hr _
  | tail _ z ih => exact ht _ _ _ ih (hp _ _ z)

theorem TActs.mono {C : Crypto} {Z : Lic} {h : Nat} {D : Nat → Prop} {N N' : Obj → Prop} (hn : ∀ o, N o → N' o) {a b : Token}
    (x : TActs C Z h D N a b) : TActs C Z h D N' a b := by
  induction x with
  | refl => exact .refl _
  | tail _ z ih =>
    refine .tail ih ?_
    cases z with
    | insert e o t hz hn' => exact .insert e o _ hz (hn o hn')
    | destroy e n t hd => exact .destroy e n _ hd
    | setAttrs e n tm t hw => exact .setAttrs e n tm _ hw
    | search e tm t hf => exact .search e tm _ hf
    | update e n tm t hl hu hdd => exact .update e n tm _ hl hu hdd
    | initPin e pin t hp => exact .initPin e pin _ hp
    | changePin e s old new t hp hd => exact .changePin e s old new _ hp hd

/-- The objects an object call `c` on session `x` may add to the token `t`. -/
inductive MadeS (C : Crypto) (O : Oracle) (e : Env) (x : Session) (t : Token) : SCall → Obj → Prop where
  | create {tm : Template} {o : Obj} (p : List Nat) (hr : roCheck x tm = .ok ())
      (ho : factoriesCreate O (e.uuid p) tm = .ok o) : MadeS C O e x t (.createObject tm) o
  | copy {n : Nat} {tm : Template} {o src : Obj} (e' : Env) (p : List Nat) (hr : roCheck x tm = .ok ())
      (hs : AMap.get t.sess n = some src ∨ t.store.fetch C e' t.handles n [] = .ok src)
      (ho : factoriesCopy (e.uuid p) src tm = .ok o) : MadeS C O e x t (.copyObject n tm) o

/-- The objects an operation or key-management call `c` on session `x` may add to the token. -/
inductive MadeO (M : Mechs) (e : Env) (x : Session) : OCall → Obj → Prop where
  | genKey {m : Nat} {q : Bytes} {tm : Template} {o : Obj} (j : Nat) (hr : roCheck x tm = .ok ())
      (ho : M.genKey (e.sub j) m q tm = .ok o) : MadeO M e x (.generateKey m q tm) (fresh o)
  | genPub {m : Nat} {q : Bytes} {pub priv : Template} {a b : Obj} (j : Nat) (hr' : roCheck x priv = .ok ())
      (hr : roCheck x pub = .ok ()) (ho : M.genPair (e.sub j) m q pub priv = .ok (a, b)) :
      MadeO M e x (.generatePair m q pub priv) (fresh a)
  | genPriv {m : Nat} {q : Bytes} {pub priv : Template} {a b : Obj} (j : Nat) (hr' : roCheck x priv = .ok ())
      (hr : roCheck x pub = .ok ()) (ho : M.genPair (e.sub j) m q pub priv = .ok (a, b)) :
      MadeO M e x (.generatePair m q pub priv) (fresh b)
  | unwrap {m k : Nat} {q data b : Bytes} {tm : Template} {F : Factory} {o : Obj} (p : List Nat)
      (hr : roCheck x tm = .ok ()) (hF : keyTemplateFactory tm = .ok F)
      (ho : importWrapped M (e.uuid p) F b tm = .ok o) : MadeO M e x (.unwrap m q k data tm) (fresh o)
  | derive {m n : Nat} {q : Bytes} {tm : Template} {k o : Obj} {extra l : List Obj} (j : Nat)
      (hr : roCheck x tm = .ok ()) (ho : M.derive (e.sub j) m q k extra tm = .ok l) (hm : o ∈ l) :
      MadeO M e x (.derive m q n tm) (fresh o)
  | encap {m k : Nat} {out : Option Nat} {b : Bytes} {tm : Template} {F : Factory} {o : Obj} (p : List Nat)
      (hr : roCheck x tm = .ok ()) (hF : keyTemplateFactory tm = .ok F)
      (ho : importWrapped M (e.uuid p) F b tm = .ok o) : MadeO M e x (.encapsulate m k tm out) (fresh o)
  | decap {m k : Nat} {data b : Bytes} {tm : Template} {F : Factory} {o : Obj} (p : List Nat)
      (hr : roCheck x tm = .ok ()) (hF : keyTemplateFactory tm = .ok F)
      (ho : importWrapped M (e.uuid p) F b tm = .ok o) : MadeO M e x (.decapsulate m k data tm) (fresh o)

section
variable {C : Crypto} {Z : Lic} {h : Nat} {D : Nat → Prop} {N : Obj → Prop}

theorem acts_insert {e : Env} {o : Obj} {t t' : Token} {r : Res Nat} (hz : Zero o) (hn : N o)
    (x : t.insertObject C e h o = (r, t')) : TActs C Z h D N t t' := by
  have := (TAct.insert (C := C) (Z := Z) (h := h) (D := D) (N := N) e o t hz hn).acts
  rw [x] at this; exact this

theorem handlesInsert_next (hs : Handles) (n : Nat) (u : Bytes) : (hs.insert n u).2.next = hs.next := by
  unfold Handles.insert; split <;> rfl

theorem encryptLoop_handle {e : Env} {a : Aci} {uid : Bytes} {ts : List Nat} {i : Nat} {o o' : Obj}
    (hc : encryptLoop C e a uid ts i o = .ok o') : o'.handle = o.handle := by
  induction ts generalizing i o with
  | nil => injection hc with hc; rw [← hc]
  | cons x ts ih =>
    unfold encryptLoop at hc
    split at hc
    · exact ih hc
    · split at hc
      · cases hc
      · split at hc
        · cases hc
        · rename_i o1 h1
          rw [ih hc]
          unfold Obj.setAttr at h1
          repeat' split at h1
          all_goals first | (cases h1; done) | (injection h1 with h1; rw [← h1])

theorem delAll_handle (l : List Nat) (o : Obj) : (delAll o l).handle = o.handle := by
  unfold delAll
  induction l generalizing o with
  | nil => rfl
  | cons x l ih => exact ih (o.delAttr x)

/-- The ways `store` of a new object can go. -/
theorem store_shape (e : Env) (st : Store) (hs : Handles) (o : Obj) (h0 : o.handle = 0) :
    (∃ r, st.store C e hs o = (.error r, st, hs)) ∨
    ∃ F uid x, objFactory o = .ok F ∧ o.getStr CKA_UNIQUE_ID = .ok uid ∧
      (if st.aci.encrypt then encryptLoop C (e.sub 0) st.aci uid F.sensitive 0 o else .ok o) = .ok x ∧
      ((∃ r, ((hs.bump.2).insert hs.next uid).1 = .error r ∧
          st.store C e hs o = (.error r, st, ((hs.bump.2).insert hs.next uid).2)) ∨
       (((hs.bump.2).insert hs.next uid).1 = .ok () ∧
          ∃ r, r = (st.db.storeObj (e.sub 1) (delAll x F.ephemeral)).1 ∧
          st.store C e hs o = ((match r with
            | .error r => .error r
            | .ok () => .ok hs.next), { st with db := (st.db.storeObj (e.sub 1) (delAll x F.ephemeral)).2 },
            ((hs.bump.2).insert hs.next uid).2))) := by
  unfold Store.store
  cases hF : objFactory o with
  | error r => exact .inl ⟨r, rfl⟩
  | ok F =>
    simp only
    cases hu : o.getStr CKA_UNIQUE_ID with
    | error r => exact .inl ⟨r, rfl⟩
    | ok uid =>
      simp only
      cases hx : (if st.aci.encrypt then encryptLoop C (e.sub 0) st.aci uid F.sensitive 0 o
          else (.ok o : Res Obj)) with
      | error r => exact .inl ⟨r, rfl⟩
      | ok x =>
        refine .inr ⟨F, uid, x, rfl, rfl, hx, ?_⟩
        have z : (delAll x F.ephemeral).handle = 0 := by
          rw [delAll_handle]
          split at hx
          · rw [encryptLoop_handle hx]; exact h0
          · injection hx with hx; rw [← hx]; exact h0
        simp only
        rw [if_pos z]
        show _ ∨ _
        have hb : hs.bump.1 = hs.next := rfl
        rw [hb]
        generalize hq : (hs.bump.2).insert hs.next uid = q
        obtain ⟨r, h2⟩ := q
        cases r with
        | error r => exact .inl ⟨r, rfl, rfl⟩
        | ok _ =>
          refine .inr ⟨rfl, _, rfl, ?_⟩
          simp only
          cases (st.db.storeObj (e.sub 1) (delAll x F.ephemeral)).1 <;> rfl

theorem store_next (e : Env) (st : Store) (hs : Handles) (o : Obj) (h0 : o.handle = 0) :
    hs.next ≤ (st.store C e hs o).2.2.next ∧ ∀ n, (st.store C e hs o).1 = .ok n → hs.next ≤ n := by
  rcases store_shape (C := C) e st hs o h0 with ⟨r, h⟩ | ⟨F, uid, x, _, _, _, ⟨r, _, h⟩ | ⟨_, r, _, h⟩⟩
  · rw [h]; exact ⟨Nat.le_refl _, fun n hn => by cases hn⟩
  · rw [h]
    refine ⟨?_, fun n hn => by cases hn⟩
    show hs.next ≤ Handles.next _
    rw [handlesInsert_next]; exact Nat.le_succ _
  · rw [h]
    refine ⟨?_, fun n hn => ?_⟩
    · show hs.next ≤ Handles.next _
      rw [handlesInsert_next]; exact Nat.le_succ _
    · cases r with
      | error r => cases hn
      | ok _ => injection hn with hn; rw [← hn]; exact Nat.le_refl _

/-- A new object gets a handle not below the counter, and the counter does not go back. -/
theorem insert_next (e : Env) (t : Token) (s : Nat) (o : Obj) (h0 : o.handle = 0) :
    t.handles.next ≤ (t.insertObject C e s o).2.handles.next ∧
      ∀ n, (t.insertObject C e s o).1 = .ok n → t.handles.next ≤ n := by
  unfold Token.insertObject
  split
  · split
    · exact ⟨Nat.le_refl _, fun n hn => by cases hn⟩
    · exact store_next e t.store t.handles o h0
  · simp only [Handles.bump]
    split
    · exact ⟨Nat.le_succ _, fun n hn => by cases hn⟩
    · rename_i uid _
      have hi := handlesInsert_next { t.handles with next := t.handles.next + 1 } t.handles.next uid
      generalize Handles.insert { t.handles with next := t.handles.next + 1 } t.handles.next uid = q at hi ⊢
      obtain ⟨r, h2⟩ := q
      simp only at hi
      cases r with
      | error r => exact ⟨by show _ ≤ h2.next; rw [hi]; exact Nat.le_succ _, fun n hn => by cases hn⟩
      | ok _ =>
        refine ⟨by show _ ≤ h2.next; rw [hi]; exact Nat.le_succ _, fun n hn => ?_⟩
        injection hn with hn
        rw [← hn]; exact Nat.le_refl _

theorem insertF_next {e : Env} {o : Obj} {t t' : Token} {r : Res Nat}
    (x : t.insertObject C e h (fresh o) = (r, t')) : t.handles.next ≤ t'.handles.next := by
  have := (insert_next (C := C) e t h (fresh o) rfl).1
  rw [x] at this; exact this

theorem insertF_handle {e : Env} {o : Obj} {t t' : Token} {n : Nat}
    (x : t.insertObject C e h (fresh o) = (.ok n, t')) : t.handles.next ≤ n := by
  have := (insert_next (C := C) e t h (fresh o) rfl).2 n
  rw [x] at this; exact this rfl

theorem acts_setAttrs {e : Env} {n : Nat} {tm : Template} {t t' : Token} {r : Res Unit}
    (hw : Z.wr n tm) (x : t.setObjectAttrs C e n tm = (r, t')) : TActs C Z h D N t t' := by
  have := (TAct.setAttrs (C := C) (Z := Z) (h := h) (D := D) (N := N) e n tm t hw).acts
  rw [x] at this; exact this

theorem acts_destroyAll (e : Env) (t : Token) (l : List Nat) (i : Nat) (hd : ∀ n ∈ l, D n) :
    TActs C Z h D N t (destroyAll C e t l i) := by
  induction l generalizing t i with
  | nil => exact .refl t
  | cons n l ih =>
    exact (TAct.destroy (e.sub i) n t (hd n (List.mem_cons_self ..))).acts.trans
      (ih _ _ fun m hm => hd m (List.mem_cons_of_mem _ hm))

theorem insertAll_handles (e : Env) (t : Token) (l : List Obj) (i : Nat) :
    ∀ n ∈ (insertAll C e h t l i).2.1, t.handles.next ≤ n := by
  induction l generalizing t i with
  | nil => intro n hn; cases hn
  | cons o l ih =>
    unfold insertAll
    have a := insert_next (C := C) (e.sub i) t h (fresh o) rfl
    generalize t.insertObject C (e.sub i) h (fresh o) = p at a ⊢
    obtain ⟨r, t1⟩ := p
    cases r with
    | error r => intro n hn; cases hn
    | ok m =>
      have b := ih t1 (i + 1)
      simp only at a ⊢
      generalize insertAll C e h t1 l (i + 1) = q at b ⊢
      intro n hn
      rcases List.mem_cons.mp hn with e1 | e1
      · rw [e1]; exact a.2 m rfl
      · exact Nat.le_trans a.1 (b n e1)

theorem insertAllEq_handles {e : Env} {t t' : Token} {l : List Obj} {i : Nat} {r : Option Rv} {l' : List Nat}
    (x : insertAll C e h t l i = (r, l', t')) : ∀ n ∈ l', t.handles.next ≤ n := by
  have := insertAll_handles (C := C) (h := h) e t l i
  rw [x] at this; exact this

theorem acts_insertAll (e : Env) (t : Token) (l : List Obj) (i : Nat) (hn : ∀ o ∈ l, N (fresh o)) :
    TActs C Z h D N t (insertAll C e h t l i).2.2 := by
  induction l generalizing t i with
  | nil => exact .refl t
  | cons o l ih =>
    unfold insertAll
    have a := (TAct.insert (C := C) (Z := Z) (h := h) (D := D) (N := N) (e.sub i) (fresh o) t (zero_fresh o)
      (hn o (List.mem_cons_self ..))).acts
    generalize t.insertObject C (e.sub i) h (fresh o) = p at a ⊢
    obtain ⟨r, t1⟩ := p
    cases r with
    | error r => exact a
    | ok n =>
      refine a.trans ?_
      have b := ih t1 (i + 1) (fun o ho => hn o (List.mem_cons_of_mem _ ho))
      simp only
      generalize insertAll C e h t1 l (i + 1) = q at b ⊢
      exact b

theorem acts_insertF {e : Env} {o : Obj} {t t' : Token} {r : Res Nat} 
    (x : t.insertObject C e h (fresh o) = (r, t')) (hn : N (fresh o)) : TActs C Z h D N t t' :=
  acts_insert (zero_fresh _) hn x

theorem acts_insertAllEq {e : Env} {t t' : Token} {l : List Obj} {i : Nat} {r : Option Rv} {l' : List Nat}
    (x : insertAll C e h t l i = (r, l', t')) (hn : ∀ o ∈ l, N (fresh o)) : TActs C Z h D N t t' := by
  have := acts_insertAll (C := C) (Z := Z) (h := h) (D := D) (N := N) e t l i hn
  rw [x] at this; exact this

theorem acts_afterUse (e : Env) (op : Op) (t : Token) (hw : ∀ n tm, op.upd = some (n, tm) → Z.wr n tm) :
    TActs C Z h D N t (afterUse C e op t).2 := by
  unfold afterUse
  split
  · exact .refl t
  · split
    · exact .refl t
    · rename_i n tm hu _
      have a := (TAct.setAttrs (C := C) (Z := Z) (h := h) (D := D) (N := N) e n tm t (hw n tm hu)).acts
      generalize t.setObjectAttrs C e n tm = p at a ⊢
      obtain ⟨r, t1⟩ := p
      cases r <;> exact a

variable (M : Mechs) (O : Oracle)

theorem acts_genKey (e : Env) (m : Nat) (param : Bytes) (tm : Template) (s : Session) (t : Token) :
    TActs C Z h D (MadeO M e s (.generateKey m param tm)) t (fnGenKey M C e h m param tm s t).2 := by
  unfold fnGenKey
  repeat' split
  all_goals first | exact .refl t | exact (TAct.insert _ _ t (zero_fresh _)
      (.genKey _ (by assumption) (by assumption))).acts

theorem acts_afterUseEq {e : Env} {op : Op} {t t' : Token} {r : Res Unit}
    (hw : ∀ n tm, op.upd = some (n, tm) → Z.wr n tm) (x : afterUse C e op t = (r, t')) : TActs C Z h D N t t' := by
  have := acts_afterUse (C := C) (Z := Z) (h := h) (D := D) (N := N) e op t hw
  rw [x] at this; exact this

/-- Say where a new object comes from. -/
macro "made" : tactic => `(tactic| first
  | exact MadeO.genPub _ (by assumption) (by assumption) (by assumption)
  | exact MadeO.genPriv _ (by assumption) (by assumption) (by assumption)
  | exact MadeO.unwrap _ (by assumption) (by assumption) (by assumption)
  | exact MadeO.encap _ (by assumption) (by assumption) (by assumption)
  | exact MadeO.decap _ (by assumption) (by assumption) (by assumption)
  | exact MadeO.derive _ (by assumption) (by assumption) (List.mem_cons_self ..)
  | exact fun o ho => MadeO.derive _ (by assumption) (by assumption) (List.mem_cons_of_mem _ ho)
  | exact fun o ho => MadeO.derive _ (by assumption) (by assumption) ho)

theorem used_of {M : Mechs} {e : Env} {k : OpKind} {a : Act} {op op' : Op} {i : OpIn} {r : Res Bytes} {n : Nat} {tm : Template}
    (hu : op'.upd = some (n, tm)) (hr : runOp M e k a op i = (r, op'))
    (hW : ∀ e k a op i n tm, (M.run e k a op i).2.upd = some (n, tm) → Z.wr n tm) : Z.wr n tm := by
  unfold runOp at hr
  have := congrArg (·.2.upd) hr
  simp only at this
  exact hW _ _ _ _ _ _ _ (this.trans hu)

/-- The operation just run asks to set the attributes of an object that may be written. -/
macro "used" : tactic => `(tactic| first
  | (intro n tm hu; exact used_of hu (by assumption) (by assumption)))

/-- Follow the token through a chain of primitive changes. -/
macro "acts" : tactic => `(tactic| repeat first
  | exact TActs.refl _
  | exact (TAct.insert _ _ _ (zero_fresh _) (by made)).acts
  | exact acts_afterUse _ _ _ (by used)
  | refine TActs.trans (acts_insertF (by assumption) (by made)) ?_
  | refine TActs.trans (acts_insertAllEq (by assumption) (by made)) ?_
  | refine TActs.trans (acts_afterUseEq (by used) (by assumption)) ?_)

theorem acts_genPair (e : Env) (m : Nat) (param : Bytes) (pub priv : Template) (s : Session) (t : Token)
    (hD : ∀ n, t.handles.next ≤ n → D n) :
    TActs C Z h D (MadeO M e s (.generatePair m param pub priv)) t (fnGenPair M C e h m param pub priv s t).2 := by
  unfold fnGenPair
  repeat' split
  all_goals acts
  exact (TAct.destroy _ _ _ (hD _ (insertF_handle (by assumption)))).acts

theorem acts_unwrap (e : Env) (m : Nat) (param : Bytes) (key : Nat) (data : Bytes) (tm : Template)
    (s : Session) (t : Token) : TActs C Z h D (MadeO M e s (.unwrap m param key data tm)) t (fnUnwrap M C e h m param key data tm s t).2 := by
  unfold fnUnwrap
  repeat' split
  all_goals acts

theorem acts_derive (e : Env) (m : Nat) (param : Bytes) (key : Nat) (tm : Template) (s : Session)
    (t : Token) (hD : ∀ n, t.handles.next ≤ n → D n) :
    TActs C Z h D (MadeO M e s (.derive m param key tm)) t (fnDerive M C e h m param key tm s t).2 := by
  unfold fnDerive
  repeat' split
  all_goals acts
  · rename_i h2
    have h1 := insertF_handle (h := h) (by assumption)
    have h0 := insertF_next (h := h) (by assumption)
    refine acts_destroyAll _ _ _ _ fun n hn => hD n ?_
    rcases List.mem_append.mp hn with hn | hn
    · exact Nat.le_trans h0 (insertAllEq_handles h2 n hn)
    · rw [List.mem_singleton.mp hn]; exact h1
  · rename_i h2
    exact acts_destroyAll _ _ _ _ fun n hn => hD n (insertAllEq_handles h2 n hn)

theorem acts_encap (e : Env) (m key : Nat) (tm : Template) (out : Option Nat) (s : Session) (t : Token) :
    TActs C Z h D (MadeO M e s (.encapsulate m key tm out)) t (fnEncap M C e h m key tm out s t).2 := by
  unfold fnEncap
  repeat' split
  all_goals acts

theorem acts_decap (e : Env) (m key : Nat) (data : Bytes) (tm : Template) (s : Session) (t : Token) :
    TActs C Z h D (MadeO M e s (.decapsulate m key data tm)) t (fnDecap M C e h m key data tm s t).2 := by
  unfold fnDecap
  repeat' split
  all_goals acts

theorem acts_sign (e : Env) (a : Act) (i : OpIn) (s : Session) (t : Token)
    (hW : ∀ e k a op i n tm, (M.run e k a op i).2.upd = some (n, tm) → Z.wr n tm) :
    TActs C Z h D N t (fnSign M C e a i s t).2.2 := by
  unfold fnSign
  repeat' split
  all_goals acts

theorem acts_verify (e : Env) (k : OpKind) (a : Act) (i : OpIn) (s : Session) (t : Token)
    (hW : ∀ e k a op i n tm, (M.run e k a op i).2.upd = some (n, tm) → Z.wr n tm) :
    TActs C Z h D N t (fnVerify M C e k a i s t).2.2 := by
  unfold fnVerify
  repeat' split
  all_goals first | acts; done | skip
  all_goals
    simp only
    repeat' split
    all_goals acts

theorem acts_opRun (e : Env) (k : OpKind) (a : Act) (i : OpIn) (s : Session) (t : Token)
    (hW : ∀ e k a op i n tm, (M.run e k a op i).2.upd = some (n, tm) → Z.wr n tm) :
    TActs C Z h D N t (fnOpRun M C e k a i s t).2.2 := by
  cases k <;> cases a <;>
    first | exact .refl t | exact acts_sign M _ _ _ _ _ hW | exact acts_verify M _ _ _ _ _ _ hW

/-- Operation and key-management calls: they destroy only what they just made. -/
theorem acts_opMadeW (e : Env) (c : OCall) (s : Session) (t : Token)
    (hD : ∀ n, t.handles.next ≤ n → D n)
    (hW : ∀ e k a op i n tm, (M.run e k a op i).2.upd = some (n, tm) → Z.wr n tm) : TActs C Z h D (MadeO M e s c) t (opStep M C e h c s t).2.2 := by
  cases c with
  | opInit k mech key sig => cases mech <;> exact .refl t
  | opRun k a i => exact acts_opRun M e k a i s t hW
  | generateKey m p tm => exact acts_genKey M e m p tm s t
  | generatePair m p pub priv =>
    have a := acts_genPair (C := C) (Z := Z) (h := h) (D := D) M e m p pub priv s t hD
    simp only [opStep]
    generalize fnGenPair M C e h m p pub priv s t = q at a ⊢
    obtain ⟨r, t'⟩ := q
    cases r <;> exact a
  | unwrap m p key data tm => exact acts_unwrap M e m p key data tm s t
  | derive m p key tm =>
    have a := acts_derive (C := C) (Z := Z) (h := h) (D := D) M e m p key tm s t hD
    simp only [opStep]
    generalize fnDerive M C e h m p key tm s t = q at a ⊢
    obtain ⟨r, t'⟩ := q
    cases r <;> exact a
  | encapsulate m key tm out => exact acts_encap M e m key tm out s t
  | decapsulate m key data tm => exact acts_decap M e m key data tm s t
  | _ => exact .refl t

theorem acts_opMade (e : Env) (c : OCall) (s : Session) (t : Token)
    (hD : ∀ n, t.handles.next ≤ n → D n) (hW : ∀ n tm, Z.wr n tm := by intro _ _; exact True.intro) :
    TActs C Z h D (MadeO M e s c) t (opStep M C e h c s t).2.2 :=
  acts_opMadeW M e c s t hD fun _ _ _ _ _ n tm _ => hW n tm

/-! ## Object calls -/

theorem zero_push {o : Obj} {a : Attr} (hz : Zero o) (hn : o.find a.typ = none ∨ a.typ ≠ CKA_UNIQUE_ID) :
    Zero (o.push a) := ⟨hz.handle, hz.session, uidCount_push o a hz.uid hn⟩

theorem zero_put {o : Obj} {a : Attr} (hz : Zero o) : Zero (o.put a) :=
  ⟨hz.handle, hz.session, uidCount_setList _ _ hz.uid⟩

theorem zero_setBool {o : Obj} {t : Nat} {b : Bool} (hz : Zero o) : Zero (o.setBool t b) :=
  ⟨hz.handle, hz.session, uidCount_setList _ _ hz.uid⟩

theorem zero_new (c : Nat) : Zero (Obj.new c) := ⟨rfl, rfl, by simp [uidCount, Obj.new, Attr.ofUlong]⟩

theorem zero_setAttr {o o' : Obj} {a : Attr} (hc : o.setAttr a = .ok o') (hz : Zero o) : Zero o' := by
  unfold Obj.setAttr at hc
  repeat' split at hc
  all_goals first
    | (cases hc; done)
    | (injection hc with hc; rw [← hc]; exact ⟨hz.handle, hz.session, uidCount_setList _ _ hz.uid⟩)

theorem zero_createLoop {fa : List FAttr} {u : Nat} {tm : Template} {o o' : Obj}
    (hc : createLoop fa u o tm = .ok o') (hz : Zero o) : Zero o' := by
  induction tm generalizing o with
  | nil => injection hc with hc; rw [← hc]; exact hz
  | cons c tm ih =>
    unfold createLoop at hc
    split at hc
    · cases hc
    split at hc
    · cases hc
    · extract_lets dup at hc
      have hd : dup = .ok () → o.find c.typ = none ∨ c.typ ≠ CKA_UNIQUE_ID := by
        intro hd
        simp only [dup] at hd
        split at hd
        · exact .inl (by assumption)
        · rename_i oa ho
          have := find_typ ho
          split at hd
          · cases hd
          · rename_i hcl
            right; rw [← this]
            intro e
            rw [e] at hcl
            exact hcl (by decide)
      clear_value dup
      split at hc
      · cases hc
      · split at hc
        · exact ih hc hz
        · split at hc
          · cases hc
          · rename_i a ha
            refine ih hc (zero_push hz ?_)
            rw [fromCk_typ ha]; exact hd rfl

theorem zero_defaultsLoop {q : Nat} {fa : List FAttr} {o o' : Obj}
    (hc : defaultsLoop q o fa = .ok o') (hz : Zero o) : Zero o' := by
  induction fa generalizing o with
  | nil => injection hc with hc; rw [← hc]; exact hz
  | cons f fa ih =>
    unfold defaultsLoop at hc
    repeat' split at hc
    all_goals first | (cases hc; done) | exact ih hc hz | exact ih hc (zero_push hz (.inl (by assumption)))

theorem zero_generateUnique {o : Obj} {uid : Bytes} (hz : Zero o) : Zero (o.generateUnique uid) := by
  unfold Obj.generateUnique
  split
  · exact hz
  · rename_i h
    refine zero_push hz (.inl ?_)
    unfold Obj.find
    rw [List.find?_eq_none]
    intro a ha hx
    exact h (List.any_eq_true.2 ⟨a, ha, hx⟩)

theorem zero_internal {F : Factory} {tm : Template} {a b : Nat} {o : Obj}
    (hc : internalObjectCreate F tm a b = .ok o) : Zero o := by
  unfold internalObjectCreate at hc
  split at hc
  · cases hc
  · rename_i o0 h0
    exact zero_defaultsLoop hc (zero_createLoop h0 (zero_new _))

theorem zero_default {F : Factory} {uid : Bytes} {tm : Template} {o : Obj}
    (hc : defaultObjectCreate F uid tm = .ok o) : Zero o := by
  unfold defaultObjectCreate at hc
  split at hc
  · cases hc
  · rename_i o0 h0
    injection hc with hc; rw [← hc]; exact zero_generateUnique (zero_internal h0)

theorem zero_keyCreate {F : Factory} {uid : Bytes} {tm : Template} {o : Obj}
    (hc : keyCreate F uid tm = .ok o) : Zero o := by
  unfold keyCreate at hc
  split at hc
  · cases hc
  · rename_i o0 h0
    have hz : Zero o0 := by
      unfold internalKeyCreate at h0
      split at h0
      · cases h0
      · rename_i o1 h1
        injection h0 with h0; rw [← h0]; exact zero_generateUnique (zero_internal h1)
    simp only at hc
    repeat' split at hc
    all_goals
      injection hc with hc; rw [← hc]
      first
        | exact hz
        | exact zero_setBool hz
        | exact zero_setBool (zero_setBool hz)
        | exact zero_setBool (zero_setBool (zero_setBool hz))

theorem zero_ensureUlong {o o' : Obj} {t v : Nat} (hc : o.ensureUlong t v = .ok o') (hz : Zero o) :
    Zero o' := by
  unfold Obj.ensureUlong at hc
  repeat' split at hc
  all_goals first
    | (cases hc; done)
    | (injection hc with hc; rw [← hc]; exact hz)
    | (injection hc with hc; rw [← hc]; exact zero_push hz (.inl (by assumption)))

theorem zero_ensureBytes {o o' : Obj} {t : Nat} {v : Bytes} (hc : o.ensureBytes t v = .ok o')
    (hz : Zero o) : Zero o' := by
  unfold Obj.ensureBytes at hc
  repeat' split at hc
  all_goals first
    | (cases hc; done)
    | (injection hc with hc; rw [← hc]; exact hz)
    | (injection hc with hc; rw [← hc]; exact zero_push hz (.inl (by assumption)))

theorem zero_trust {o o' : Obj} (hc : trustChecks o = .ok o') (hz : Zero o) : Zero o' := by
  unfold trustChecks at hc
  split at hc
  · cases hc
  · rename_i o1 h1
    have z1 := zero_ensureUlong h1 hz
    repeat' split at hc
    all_goals first
      | (cases hc; done)
      | (injection hc with hc; rw [← hc]; exact z1)
      | (injection hc with hc; rw [← hc]; exact zero_put z1)

theorem zero_nssTrust {o o' : Obj} (hc : nssTrustChecks o = .ok o') (hz : Zero o) : Zero o' := by
  unfold nssTrustChecks at hc
  repeat' split at hc
  all_goals first
    | (cases hc; done)
    | (injection hc with hc; rw [← hc]; exact zero_ensureUlong (by assumption) hz)

theorem zero_hotp {o o' : Obj} (hc : hotpValidate o = .ok o') (hz : Zero o) : Zero o' := by
  unfold hotpValidate at hc
  split at hc
  · cases hc
  · rename_i o1 h1
    have z1 := zero_ensureUlong h1 hz
    split at hc
    · cases hc
    · rename_i o2 h2
      have z2 := zero_ensureUlong h2 z1
      split at hc
      · cases hc
      · simp only at hc
        repeat' split at hc
        all_goals first
          | (cases hc; done)
          | skip
        all_goals
          injection hc with hc
          subst hc
          rename_i hm _ _
          repeat' split at hm
          all_goals first
            | (cases hm; done)
            | (injection hm with hm; rw [← hm]; exact z2)
            | (injection hm with hm; rw [← hm]; exact zero_put z2)

theorem zero_asym {O : Oracle} {k : FactoryKind} {o o' : Obj} (hc : asymChecks O k o = .ok o')
    (hz : Zero o) : Zero o' := by
  unfold asymChecks at hc
  split at hc
  · cases hc
  · rename_i l hl
    clear hl
    injection hc with hc
    rw [← hc]
    generalize l.filter (fun a => asymUpdTypes.contains a.typ) = m
    clear hc
    induction m generalizing o with
    | nil => exact hz
    | cons a m ih => exact ih (o := o.put a) (zero_put hz)

theorem zero_rsaInfo {O : Oracle} {o o' : Obj} (hc : rsaPublicKeyInfo O o = .ok o') (hz : Zero o) :
    Zero o' := by
  unfold rsaPublicKeyInfo at hc
  repeat' split at hc
  all_goals first | (cases hc; done) | exact zero_ensureBytes hc hz

theorem zero_create {O : Oracle} {uid : Bytes} {tm : Template} {o : Obj}
    (hc : factoriesCreate O uid tm = .ok o) : Zero o := by
  unfold factoriesCreate at hc
  split at hc
  · cases hc
  · rename_i F _
    unfold Factory.create at hc
    repeat' split at hc
    all_goals first
      | (cases hc; done)
      | exact zero_default hc
      | (injection hc with hc; rw [← hc]; exact zero_default (by assumption))
      | exact zero_trust hc (zero_default (by assumption))
      | exact zero_nssTrust hc (zero_default (by assumption))
      | exact zero_ensureUlong hc (zero_keyCreate (by assumption))
      | exact zero_hotp hc (zero_keyCreate (by assumption))
      | exact zero_asym hc (zero_keyCreate (by assumption))
      | exact zero_rsaInfo hc (zero_keyCreate (by assumption))
      | exact zero_hotp hc (zero_put (zero_keyCreate (by assumption)))

theorem zero_applyTemplate {tm : Template} {o : Obj} (hz : Zero o) : Zero (applyTemplate o tm).2 := by
  induction tm generalizing o with
  | nil => exact hz
  | cons c tm ih =>
    unfold applyTemplate
    split
    · exact hz
    · split
      · exact hz
      · rename_i o1 h1
        exact ih (zero_setAttr h1 hz)

theorem zero_copy {uid : Bytes} {o o' : Obj} {tm : Template} (hc : factoriesCopy uid o tm = .ok o') :
    Zero o' := by
  have zb : Zero (o.blindCopy uid) := by
    have z := zero_generateUnique (uid := uid) (zero_new o.cls)
    refine ⟨z.handle, z.session, ?_⟩
    unfold Obj.blindCopy uidCount
    have hf : ∀ l : List Attr, (l.filter fun a => a.typ != CKA_UNIQUE_ID).filter
        (fun a => a.typ == CKA_UNIQUE_ID) = [] := by
      intro l
      rw [List.filter_filter, List.filter_eq_nil_iff]
      intro a _; simp
    simp only [List.filter_append, hf, List.append_nil]
    exact z.uid
  have za := zero_applyTemplate (tm := tm) zb
  unfold factoriesCopy at hc
  split at hc
  · cases hc
  · split at hc
    · cases hc
    · unfold Factory.copy defaultCopy at hc
      repeat' split at hc
      all_goals first | (cases hc; done) | skip
      all_goals
        rename_i o1 h1
        rw [h1] at za
        injection hc with hc
        rw [← hc]
        have : ∀ x : Obj, Zero x → Zero (copyFixAlwaysSensitive o x) := by
          intro x hx; unfold copyFixAlwaysSensitive; repeat' split
          all_goals first | exact hx | exact zero_setBool hx
        apply this
        unfold copyFixNeverExtractable
        repeat' split
        all_goals first | exact za | exact zero_setBool za

theorem acts_certDuplicate (e : Env) (t : Token) (o : Obj) (hF : Z.find := by exact True.intro) : TActs C Z h D N t (t.certDuplicate e o).2 := by
  have key : ∀ tm, TActs C Z h D N t (t.isDuplicate e tm).2 := by
    intro tm
    have a := (TAct.search (C := C) (Z := Z) (h := h) (D := D) (N := N) e tm t hF).acts
    unfold Token.isDuplicate
    generalize t.store.search e t.handles tm = p at a ⊢
    obtain ⟨r, hs⟩ := p
    simp only
    repeat' split
    all_goals exact a
  unfold Token.certDuplicate
  split
  · exact key _
  · exact .refl t

theorem acts_keyDuplicate (e : Env) (t : Token) (o : Obj) (hF : Z.find := by exact True.intro) : TActs C Z h D N t (t.keyDuplicate e o).2 := by
  have key : ∀ tm, TActs C Z h D N t (t.isDuplicate e tm).2 := by
    intro tm
    have a := (TAct.search (C := C) (Z := Z) (h := h) (D := D) (N := N) e tm t hF).acts
    unfold Token.isDuplicate
    generalize t.store.search e t.handles tm = p at a ⊢
    obtain ⟨r, hs⟩ := p
    simp only
    repeat' split
    all_goals exact a
  unfold Token.keyDuplicate
  split
  · exact key _
  · exact .refl t

theorem swapRemove_gone {l : Template} {t : Nat} (h : (l.filter fun c => c.typ == t).length ≤ 1) :
    ∀ c ∈ Token.swapRemove l t, c.typ ≠ t := by
  unfold Token.swapRemove
  split
  · rename_i hn
    rw [List.findIdx?_eq_none_iff] at hn
    intro c hc e
    have := hn c hc
    simp [e] at this
  · rename_i i hi
    obtain ⟨hlt, hx, _⟩ := List.findIdx?_eq_some_iff_getElem.1 hi
    have hl : l = l.take i ++ l[i] :: l.drop (i + 1) := by simp
    generalize l[i] = x at hx hl
    generalize hp : l.take i = pre at hl
    generalize hq : l.drop (i + 1) = post at hl
    have hpl : pre.length = i := by rw [← hp, List.length_take]; omega
    subst hl
    have no : ∀ c, c ∈ pre ∨ c ∈ post → c.typ ≠ t := by
      simp only [List.filter_append, List.filter_cons, hx, if_true, List.length_append, List.length_cons] at h
      intro c hc e
      have mem : ∀ m : Template, c ∈ m → 0 < (m.filter fun c => c.typ == t).length := by
        intro m hm
        exact List.length_pos_of_mem (List.mem_filter.2 ⟨hm, by simp [e]⟩)
      rcases hc with hc | hc
      · have := mem _ hc; omega
      · have := mem _ hc; omega
    split
    · rename_i hn
      rw [List.getLast?_eq_none_iff] at hn
      simp at hn
    · rename_i last hlast
      intro c hc
      apply no
      split at hc
      · rename_i e
        have : post = [] := by
          simp only [List.length_append, List.length_cons] at e
          exact List.eq_nil_of_length_eq_zero (by omega)
        subst this
        simp at hc
        exact .inl hc
      · rename_i e
        have hne : post ≠ [] := by
          intro h0; subst h0; simp at e; omega
        obtain ⟨y, post', rfl⟩ := List.exists_cons_of_ne_nil hne
        simp only [List.getLast?_append, List.getLast?_cons_cons] at hlast
        rw [List.getLast?_cons] at hlast
        simp only [Option.some_or] at hlast
        rw [← List.getLast?_cons] at hlast
        have hm := List.mem_of_getLast? hlast
        rw [List.dropLast_append_cons, List.dropLast_cons_of_ne_nil (by simp), List.set_append_right _ _ (by omega)] at hc
        have : i - pre.length = 0 := by omega
        rw [this] at hc
        simp only [List.set_cons_zero] at hc
        rcases List.mem_append.1 hc with hc | hc
        · exact .inl hc
        · rcases List.mem_cons.1 hc with hc | hc
          · subst hc; exact .inr hm
          · exact .inr (List.dropLast_subset _ hc)

theorem acts_checkDedup (e : Env) (t : Token) (o : Obj) (hz : Zero o) (hl : t.loggedIn = true)
    (hF : Z.find := by exact True.intro) :
    TActs C Z h D N t (t.checkDedup C e o).2 := by
  have fin : ∀ (p : Res (Option Nat) × Token), TActs C Z h D N t p.2 → p.2.loggedIn = true → p.2.cfg.dedup ≠ none →
      TActs C Z h D N t (match p with
        | (r, t) => match r with
          | .error r => ((.error r : Res (Option Nat)), t)
          | .ok none => (.ok none, t)
          | .ok (some n) =>
            let updt := Token.swapRemove (o.attrs.map fun a : Attr => CkAttr.mk' a.typ a.value) CKA_UNIQUE_ID
            let (r, st) := t.store.update C (e.sub 1) t.handles n updt
            let t := { t with store := st }
            match r with
            | .error r => (.error r, t)
            | .ok () => (.ok (some n), t)).2 := by
    intro p a hl hdd
    obtain ⟨r, t1⟩ := p
    simp only
    split
    · exact a
    · exact a
    · rename_i n
      simp only at a hl hdd
      have b := (TAct.update (C := C) (Z := Z) (h := h) (D := D) (N := N) (e.sub 1) n
        (Token.swapRemove (o.attrs.map fun a : Attr => CkAttr.mk' a.typ a.value) CKA_UNIQUE_ID) t1 hl
        (swapRemove_gone (by
          have := hz.uid
          unfold uidCount at this
          rw [List.filter_map, List.length_map]
          exact this)) hdd).acts
      generalize t1.store.update C (e.sub 1) t1.handles n
        (Token.swapRemove (o.attrs.map fun a : Attr => CkAttr.mk' a.typ a.value) CKA_UNIQUE_ID) = q at b ⊢
      obtain ⟨r, st⟩ := q
      cases r <;> exact a.trans b
  have logC : (t.certDuplicate (e.sub 0) o).2.loggedIn = true := by
    unfold Token.certDuplicate Token.isDuplicate
    repeat' split
    all_goals exact hl
  have logK : (t.keyDuplicate (e.sub 0) o).2.loggedIn = true := by
    unfold Token.keyDuplicate Token.isDuplicate
    repeat' split
    all_goals exact hl
  unfold Token.checkDedup
  cases hd : t.cfg.dedup with
  | none =>
    simp only
    split
    · have a := acts_certDuplicate (C := C) (Z := Z) (h := h) (D := D) (N := N) (e.sub 0) t o hF
      generalize t.certDuplicate (e.sub 0) o = p at a ⊢
      obtain ⟨r, t1⟩ := p
      simp only
      split <;> exact a
    · exact .refl t
  | some d =>
    simp only
    apply fin
    · cases d <;> simp only
      · split
        · exact acts_certDuplicate _ _ _ hF
        · exact .refl t
      · split
        · exact acts_certDuplicate _ _ _ hF
        · exact .refl t
      · split
        · exact acts_certDuplicate _ _ _ hF
        · split
          · exact acts_keyDuplicate _ _ _ hF
          · exact .refl t
    · cases d <;> simp only
      · split
        · exact logC
        · exact hl
      · split
        · exact logC
        · exact hl
      · split
        · exact logC
        · split
          · exact logK
          · exact hl
    · have hcfg : (t.certDuplicate (e.sub 0) o).2.cfg = t.cfg ∧ (t.keyDuplicate (e.sub 0) o).2.cfg = t.cfg := by
        unfold Token.certDuplicate Token.keyDuplicate Token.isDuplicate
        constructor
        all_goals
          repeat' split
          all_goals rfl
      have h0 : t.cfg.dedup ≠ none := by rw [hd]; exact fun h => nomatch h
      cases d <;> simp only
      · split
        · rw [hcfg.1]; exact h0
        · exact h0
      · split
        · rw [hcfg.1]; exact h0
        · exact h0
      · split
        · rw [hcfg.1]; exact h0
        · split
          · rw [hcfg.2]; exact h0
          · exact h0

theorem acts_create (e : Env) (x : Session) (t : Token) (tm : Template) (hr : roCheck x tm = .ok ()) (hF : Z.find) :
    TActs C Z h D (MadeS C O e x t (.createObject tm)) t (t.createObject C O e h tm).2 := by
  unfold Token.createObject
  split
  · exact .refl t
  · rename_i o ho
    have z := zero_create ho
    have hn : MadeS C O e x t (.createObject tm) o := .create [0] hr ho
    split
    · split
      · exact .refl t
      · rename_i hl
        have a := acts_checkDedup (C := C) (Z := Z) (h := h) (D := D) (N := MadeS C O e x t (.createObject tm)) (e.sub 1) t o z
          (by simpa using hl) hF
        generalize t.checkDedup C (e.sub 1) o = p at a ⊢
        obtain ⟨r, t1⟩ := p
        simp only
        split
        · exact a
        · exact a
        · exact a.trans (TAct.insert _ _ _ z hn).acts
    · exact (TAct.insert _ _ _ z hn).acts

theorem acts_copy (e : Env) (x : Session) (t : Token) (n : Nat) (tm : Template) (hr : roCheck x tm = .ok ()) :
    TActs C Z h D (MadeS C O e x t (.copyObject n tm)) t (t.copyObject C e h n tm).2 := by
  unfold Token.copyObject
  extract_lets obj
  rcases hsrc : obj with r | src
  · exact .refl t
  · simp only
    split
    · exact .refl t
    · rename_i o ho
      have z := zero_copy ho
      have hn : MadeS C O e x t (.copyObject n tm) o := by
        refine .copy (e.sub 0) [1] hr ?_ ho
        simp only [obj] at hsrc
        repeat' split at hsrc
        all_goals first | (cases hsrc; done) | skip
        · rename_i h1; injection hsrc with hsrc; rw [← hsrc]; exact .inl h1
        · rename_i h1 _; injection hsrc with hsrc; rw [← hsrc]; exact .inr h1
      exact (TAct.insert _ _ _ z hn).acts

theorem acts_searchObjects (e : Env) (t : Token) (tm : Template) (hF : Z.find) :
    TActs C Z h D N t (t.searchObjects e tm).2 := by
  unfold Token.searchObjects
  simp only
  have a := (TAct.search (C := C) (Z := Z) (h := h) (D := D) (N := N) e
    (if t.loggedIn = true then tm else tm ++ [CkAttr.ofBool CKA_PRIVATE false]) t hF).acts
  generalize t.store.search e t.handles
    (if t.loggedIn = true then tm else tm ++ [CkAttr.ofBool CKA_PRIVATE false]) = p at a ⊢
  obtain ⟨r, hs⟩ := p
  cases r <;> exact a

/-- Object, PIN and search calls: only C_DestroyObject removes objects, and C_SetPIN while
nobody is logged in (which logs in and out). -/
theorem acts_sessMadeW (e : Env) (c : SCall) (s : Session) (t : Token)
    (hD : ∀ n, c = .destroyObject n → D n)
    (hZ : ((∃ p, c = .initPin p) ∨ ∃ p q, c = .setPin p q) → Z.pin)
    (hW : ∀ n tm, c = .setAttr n tm → Z.wr n tm)
    (hF : ((∃ tm, c = .createObject tm) ∨ ∃ tm, c = .findInit tm) → Z.find)
    (hP : ∀ old new, c = .setPin old new → t.logged = none → ∀ n o, AMap.get t.sess n = some o →
      o.session ≠ 0 → o.isPrivate = true → D n) :
    TActs C Z h D (MadeS C O e s t c) t (sessStep C O e h c s t).2.2 := by
  cases c with
  | getSessionInfo => exact .refl t
  | initPin pin =>
    simp only [sessStep]
    split
    · exact .refl t
    · exact (TAct.initPin e pin t (hZ (.inl ⟨_, rfl⟩))).acts
  | setPin old new => exact (TAct.changePin e s old new t (hZ (.inr ⟨_, _, rfl⟩)) (hP old new rfl)).acts
  | createObject tm =>
    show TActs C Z h D _ t (fnCreate C O e h s t tm).2
    unfold fnCreate
    split
    · exact .refl t
    · split
      · exact .refl t
      · exact acts_create O e s t tm (by assumption) (hF (.inl ⟨_, rfl⟩))
  | copyObject n tm =>
    show TActs C Z h D _ t (fnCopy C e h s t n tm).2
    unfold fnCopy
    split
    · exact .refl t
    · split
      · exact .refl t
      · exact acts_copy O e s t n tm (by assumption)
  | destroyObject n =>
    show TActs C Z h D _ t (fnDestroy C e s t n).2
    unfold fnDestroy
    repeat' split
    all_goals first | exact .refl t | exact (TAct.destroy _ _ _ (hD n rfl)).acts
  | getObjectSize n =>
    simp only [sessStep]
    repeat' split
    all_goals exact .refl t
  | getAttr n tm =>
    simp only [sessStep]
    repeat' split
    all_goals exact .refl t
  | setAttr n tm =>
    show TActs C Z h D _ t (fnSetAttr C e s t n tm).2
    unfold fnSetAttr
    repeat' split
    all_goals first | exact .refl t | exact (TAct.setAttrs _ _ _ _ (hW n tm rfl)).acts
  | findInit tm =>
    simp only [sessStep]
    split
    · exact .refl t
    · unfold Session.newSearch
      split
      · exact .refl t
      · have a := acts_searchObjects (C := C) (Z := Z) (h := h) (D := D) (N := MadeS C O e s t (.findInit tm)) e t tm (hF (.inr ⟨_, rfl⟩))
        generalize t.searchObjects e tm = p at a ⊢
        obtain ⟨r, t1⟩ := p
        cases r <;> exact a
  | find max =>
    simp only [sessStep]
    split <;> exact .refl t
  | findFinal => exact .refl t

theorem acts_sessMade (e : Env) (c : SCall) (s : Session) (t : Token)
    (hD : ∀ n, c = .destroyObject n → D n)
    (hZ : ((∃ p, c = .initPin p) ∨ ∃ p q, c = .setPin p q) → Z.pin)
    (hP : ∀ old new, c = .setPin old new → t.logged = none → ∀ n o, AMap.get t.sess n = some o →
      o.session ≠ 0 → o.isPrivate = true → D n) (hW : ∀ n tm, Z.wr n tm := by intro _ _; exact True.intro)
    (hF : Z.find := by exact True.intro) :
    TActs C Z h D (MadeS C O e s t c) t (sessStep C O e h c s t).2.2 :=
  acts_sessMadeW O e c s t hD hZ (fun n tm _ => hW n tm) (fun _ => hF) hP

theorem MadeS.makes {e : Env} {x : Session} {t : Token} {c : SCall} {o : Obj} (m : MadeS C O e x t c o) :
    Spec.makesS c = true := by cases m <;> rfl

theorem MadeO.makes {M : Mechs} {e : Env} {x : Session} {c : OCall} {o : Obj} (m : MadeO M e x c o) :
    Spec.makesO c = true := by cases m <;> rfl

theorem acts_opStep {N : Prop} (e : Env) (c : OCall) (s : Session) (t : Token)
    (hD : ∀ n, t.handles.next ≤ n → D n) (hn : Spec.makesO c = true → N)
    (hW : ∀ n tm, Z.wr n tm := by intro _ _; exact True.intro) :
    TActs C Z h D (fun _ => N) t (opStep M C e h c s t).2.2 :=
  (acts_opMade M e c s t hD hW).mono fun _ m => hn m.makes

theorem acts_sessStep {N : Prop} (e : Env) (c : SCall) (s : Session) (t : Token)
    (hD : ∀ n, c = .destroyObject n → D n) (hZ : ((∃ p, c = .initPin p) ∨ ∃ p q, c = .setPin p q) → Z.pin)
    (hn : Spec.makesS c = true → N)
    (hP : ∀ old new, c = .setPin old new → t.logged = none → ∀ n o, AMap.get t.sess n = some o →
      o.session ≠ 0 → o.isPrivate = true → D n) (hW : ∀ n tm, Z.wr n tm := by intro _ _; exact True.intro)
    (hF : Z.find := by exact True.intro) :
    TActs C Z h D (fun _ => N) t (sessStep C O e h c s t).2.2 :=
  (acts_sessMade O e c s t hD hZ hP hW hF).mono fun _ m => hn (m.makes O)

end

end Kry
