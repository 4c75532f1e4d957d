import Verif.Proofs.Gone
import Verif.Proofs.Fetch
import Verif.Proofs.Typed
import Verif.Proofs.Dead
import Verif.Spec.Search

/-!
# What a search finds
-/

namespace Kry

open Spec

/-- An object the search may show: it is not sensitive, or the template asks for none of its secrets. -/
def shown (tm : Template) (o : Obj) : Bool :=
  !(o.isSensitive && (match checkSensitive o tm with
    | .error _ => true
    | .ok () => false))

/-- The loop over the rows found: exactly the objects shown, each once. -/
theorem searchLoop_exact (tm : Template) (l : List Obj) {h : Handles} (ok : HsOk h) {r : List Nat}
    (hr : (searchLoop tm l h).1 = .ok r) :
    (∀ n ∈ r, ∃ o ∈ l, ∃ u, shown tm o = true ∧ o.getStr CKA_UNIQUE_ID = .ok u ∧ internalUid u = false ∧
      (searchLoop tm l h).2.get n = some u) ∧
    (∀ o ∈ l, ∀ u, shown tm o = true → o.getStr CKA_UNIQUE_ID = .ok u → internalUid u = false →
      ∃ n ∈ r, (searchLoop tm l h).2.get n = some u) ∧
    (l.Pairwise (fun o o' => ∀ u, o.getStr CKA_UNIQUE_ID = .ok u → o'.getStr CKA_UNIQUE_ID ≠ .ok u) → r.Nodup) := by
  induction l generalizing h r with
  | nil =>
    unfold searchLoop at hr; injection hr with hr; subst hr
    exact ⟨fun n hn => (nomatch hn), fun o ho => (nomatch ho), fun _ => List.nodup_nil⟩
  | cons o l ih =>
    -- the object is passed over
    have pass : ∀ {h : Handles} {r}, HsOk h → (searchLoop tm l h).1 = .ok r →
        (∀ u, shown tm o = true → o.getStr CKA_UNIQUE_ID = .ok u → internalUid u = false → False) →
        (∀ n ∈ r, ∃ o' ∈ o :: l, ∃ u, shown tm o' = true ∧ o'.getStr CKA_UNIQUE_ID = .ok u ∧ internalUid u = false ∧
          (searchLoop tm l h).2.get n = some u) ∧
        (∀ o' ∈ o :: l, ∀ u, shown tm o' = true → o'.getStr CKA_UNIQUE_ID = .ok u → internalUid u = false →
          ∃ n ∈ r, (searchLoop tm l h).2.get n = some u) ∧
        ((o :: l).Pairwise (fun o o' => ∀ u, o.getStr CKA_UNIQUE_ID = .ok u → o'.getStr CKA_UNIQUE_ID ≠ .ok u) →
          r.Nodup) := by
      intro h r ok hr hno
      obtain ⟨i1, i2, i3⟩ := ih ok hr
      refine ⟨fun n hn => ?_, fun o' ho' u a b c => ?_, fun hp => i3 (List.pairwise_cons.1 hp).2⟩
      · obtain ⟨o', ho', x⟩ := i1 n hn
        exact ⟨o', List.mem_cons_of_mem _ ho', x⟩
      · rcases List.mem_cons.1 ho' with e | e
        · subst e; exact absurd c (fun c => hno u a b c)
        · exact i2 o' e u a b c
    -- the object is listed under `n`
    have take : ∀ {h : Handles} {l' : List Nat} {n : Nat} {u : Bytes}, HsOk h → h.get n = some u →
        (searchLoop tm l h).1 = .ok l' → shown tm o = true → o.getStr CKA_UNIQUE_ID = .ok u →
        internalUid u = false →
        (∀ m ∈ n :: l', ∃ o' ∈ o :: l, ∃ u, shown tm o' = true ∧ o'.getStr CKA_UNIQUE_ID = .ok u ∧
          internalUid u = false ∧ (searchLoop tm l h).2.get m = some u) ∧
        (∀ o' ∈ o :: l, ∀ u, shown tm o' = true → o'.getStr CKA_UNIQUE_ID = .ok u → internalUid u = false →
          ∃ m ∈ n :: l', (searchLoop tm l h).2.get m = some u) ∧
        ((o :: l).Pairwise (fun o o' => ∀ u, o.getStr CKA_UNIQUE_ID = .ok u → o'.getStr CKA_UNIQUE_ID ≠ .ok u) →
          (n :: l').Nodup) := by
      intro h l' n u ok hn hr a b c
      obtain ⟨i1, i2, i3⟩ := ih ok hr
      have hn' := (hs_searchLoop tm l ok).2.1.keep n u hn id
      refine ⟨fun m hm => ?_, fun o' ho' u' a' b' c' => ?_, fun hp => ?_⟩
      · rcases List.mem_cons.1 hm with e | e
        · subst e; exact ⟨o, List.mem_cons_self .., u, a, b, c, hn'⟩
        · obtain ⟨o', ho', x⟩ := i1 m e
          exact ⟨o', List.mem_cons_of_mem _ ho', x⟩
      · rcases List.mem_cons.1 ho' with e | e
        · subst e
          rw [b] at b'; injection b' with b'; subst b'
          exact ⟨n, List.mem_cons_self .., hn'⟩
        · obtain ⟨m, hm, x⟩ := i2 o' e u' a' b' c'
          exact ⟨m, List.mem_cons_of_mem _ hm, x⟩
      · obtain ⟨p1, p2⟩ := List.pairwise_cons.1 hp
        refine List.nodup_cons.2 ⟨fun hm => ?_, i3 p2⟩
        obtain ⟨o', ho', u', _, b', _, g'⟩ := i1 n hm
        rw [hn'] at g'; injection g' with g'; subst g'
        exact p1 o' ho' u b b'
    unfold searchLoop at hr ⊢
    extract_lets sk at hr ⊢
    have hsk : sk = !shown tm o := (Bool.not_not _).symm
    clear_value sk
    subst hsk
    by_cases hs : shown tm o = true
    · simp only [hs, Bool.not_true, Bool.false_eq_true, if_false] at hr ⊢
      cases hu : o.getStr CKA_UNIQUE_ID with
      | error q =>
        simp only [hu] at hr ⊢
        have := pass ok hr (fun u _ b _ => by rw [hu] at b; cases b)
        simpa only [hu] using this
      | ok u =>
        simp only [hu] at hr ⊢
        by_cases hi : internalUid u = true
        · simp only [hi, if_true] at hr ⊢
          have := pass ok hr (fun u' _ b c => by
            rw [hu] at b; injection b with b; subst b; rw [hi] at c; cases c)
          simpa only [hu] using this
        · simp only [hi, Bool.false_eq_true, if_false] at hr ⊢
          have hi' : internalUid u = false := by simpa using hi
          cases hb : h.getByUid u with
          | some n =>
            simp only [hb] at hr ⊢
            have hn := getByUid_some ok.nd hb
            have t := @take h
            generalize searchLoop tm l h = q at hr t ⊢
            obtain ⟨q1, q2⟩ := q
            cases q1 with
            | error q1 => cases hr
            | ok l' =>
              simp only at hr ⊢
              injection hr with hr; subst hr
              have := t ok hn rfl hs hu hi'
              simpa only [hu] using this
          | none =>
            simp only [hb] at hr ⊢
            have a := hs_insert (D := fun _ => False) ok u
            have hb1 : h.bump.1 = h.next := rfl
            simp only [hb1] at hr ⊢
            generalize h.bump.2.insert h.next u = b at a hr ⊢
            obtain ⟨r1, h1⟩ := b
            cases r1 with
            | error r1 => cases hr
            | ok _ =>
              simp only at hr ⊢
              have t := @take h1
              generalize searchLoop tm l h1 = q at hr t ⊢
              obtain ⟨q1, q2⟩ := q
              cases q1 with
              | error q1 => cases hr
              | ok l' =>
                simp only at hr ⊢
                injection hr with hr; subst hr
                have := t a.1 (a.2.2.2.1 rfl).1 rfl hs hu hi'
                simpa only [hu] using this
    · have hs' : shown tm o = false := by simpa using hs
      simp only [hs', Bool.not_false, if_true] at hr ⊢
      exact pass ok hr (fun u a _ _ => by rw [hs'] at a; cases a)

/-- Reading groups of rows gives one object for each, in order. -/
theorem rowsToObjects_exact {gs : ObjTable} {l : List Obj} (h : rowsToObjects gs = .ok l) :
    (∀ o ∈ l, ∃ g ∈ gs, decodeRows (Obj.new CK_UNAVAILABLE_INFORMATION) g.2 = .ok o) ∧
    (∀ g ∈ gs, ∃ o ∈ l, decodeRows (Obj.new CK_UNAVAILABLE_INFORMATION) g.2 = .ok o) ∧
    ∀ {R : Obj → Obj → Prop}, gs.Pairwise (fun g g' => ∀ o o',
      decodeRows (Obj.new CK_UNAVAILABLE_INFORMATION) g.2 = .ok o →
      decodeRows (Obj.new CK_UNAVAILABLE_INFORMATION) g'.2 = .ok o' → R o o') → l.Pairwise R := by
  induction gs generalizing l with
  | nil =>
    injection h with h; subst h
    exact ⟨fun _ h => (nomatch h), fun _ h => (nomatch h), fun _ => .nil⟩
  | cons g gs ih =>
    unfold rowsToObjects at h
    split at h
    · cases h
    rename_i o ho
    split at h
    · cases h
    split at h
    · cases h
    rename_i l' hl'
    injection h with h; subst h
    obtain ⟨i1, i2, i3⟩ := ih hl'
    refine ⟨fun o' ho' => ?_, fun g' hg' => ?_, fun hp => ?_⟩
    · rcases List.mem_cons.1 ho' with e | e
      · subst e; exact ⟨g, List.mem_cons_self .., ho⟩
      · obtain ⟨g', h1, h2⟩ := i1 o' e
        exact ⟨g', List.mem_cons_of_mem _ h1, h2⟩
    · rcases List.mem_cons.1 hg' with e | e
      · subst e; exact ⟨o, List.mem_cons_self .., ho⟩
      · obtain ⟨o', h1, h2⟩ := i2 g' e
        exact ⟨o', List.mem_cons_of_mem _ h1, h2⟩
    · obtain ⟨p1, p2⟩ := List.pairwise_cons.1 hp
      refine List.pairwise_cons.2 ⟨fun o' ho' => ?_, i3 p2⟩
      obtain ⟨g', h1, h2⟩ := i1 o' ho'
      exact p1 g' h1 o o' ho h2

/-- The value compared in a query is the stored form of the template's value. -/
theorem searchVal_encode {c : CkAttr} {v : DbVal} (h : searchVal c = .ok v) :
    ∃ a, Attr.fromCk c = .ok a ∧ encodeAttr a = .ok (some v) := by
  unfold searchVal at h
  split at h
  · cases h
  unfold Attr.fromCk
  split at h
  · cases h
  all_goals rename_i hk; simp only [hk]
  · split at h
    · cases h
    · rename_i b hb
      injection h with h; subst h
      refine ⟨_, by rw [hb], ?_⟩
      cases b <;> rfl
  · split at h
    · cases h
    · rename_i n hn
      refine ⟨_, by rw [hn], ?_⟩
      have hlt : n < 2 ^ 64 := by
        unfold CkAttr.toUlong at hn
        split at hn
        · cases hn
        · split at hn
          · cases hn
          · injection hn with hn; subst hn
            rename_i hl _ bs hbs
            rw [hbs] at hl
            have : bs.length = 8 := by simpa [PVal.len, ulongSize] using hl
            have := fromLE_lt bs
            rw [‹bs.length = 8›] at this
            exact this
      have e1 : (Attr.ofUlong c.typ n).toUlong = .ok n := by
        unfold Attr.toUlong
        rw [if_neg (by simp [Attr.ofUlong]), if_neg (by simp [Attr.ofUlong, ulongSize, ulongBytes_length])]
        simp only [Attr.ofUlong, fromLE_ulongBytes n hlt]
      have e2 : (Attr.ofUlong c.typ n).atype = .num := rfl
      unfold encodeAttr
      simp only [e2, e1, h]
  · split at h
    · cases h
    · rename_i b hb
      injection h with h; subst h
      refine ⟨_, by rw [hb], ?_⟩
      have hv : validUtf8 b = true := by
        unfold CkAttr.toStr at hb
        split at hb
        · injection hb with hb; subst hb; rfl
        · split at hb
          · cases hb
          · split at hb
            · injection hb with hb; subst hb; assumption
            · cases hb
      simp only [encodeAttr, Attr.ofString, Attr.toStr, hv]
      rfl
  · injection h with h; subst h
    exact ⟨_, rfl, rfl⟩
  · split at h
    · cases h
    · rename_i su hsu
      split at h
      · cases h
      · injection h with h; subst h
        refine ⟨_, rfl, ?_⟩
        have hb : c.toBuf = su := by
          unfold CkAttr.toSlice at hsu
          unfold CkAttr.toBuf
          cases hp : c.pval with
          | null n =>
            rw [hp] at hsu
            by_cases h0 : (PVal.null n).len = 0
            · rw [if_pos h0] at hsu; injection hsu
            · rw [if_neg h0] at hsu; cases hsu
          | data bs =>
            rw [hp] at hsu
            by_cases h0 : (PVal.data bs).len = 0
            · rw [if_pos h0] at hsu; injection hsu with hsu; subst hsu
              exact List.length_eq_zero_iff.1 h0
            · rw [if_neg h0] at hsu; injection hsu
        rename_i h8
        simp only [encodeAttr, Attr.ofUlongBytes, Attr.toUlongArray, hb, ulongSize]
        rw [if_neg (by decide), if_neg h8]
  · unfold Attr.fromCk at h
    simp only [hk] at h
    split at h
    · cases h
    · rename_i a ha
      split at h
      · cases h
      · rename_i d hd
        injection h with h; subst h
        split at ha
        · injection ha with ha; subst ha
          rename_i d' _
          refine ⟨_, rfl, ?_⟩
          simp only [encodeAttr, Attr.ofDate] at hd ⊢
          rw [hd]
        · cases ha
  · cases h
  · cases h

theorem encode_searchVal {c : CkAttr} {v v' : DbVal} {a : Attr} (h : searchVal c = .ok v)
    (ha : Attr.fromCk c = .ok a) (he : encodeAttr a = .ok (some v')) : v' = v := by
  obtain ⟨a1, h1, h2⟩ := searchVal_encode h
  rw [ha] at h1; injection h1 with h1; subst h1
  rw [he] at h2; injection h2 with h2; injection h2

theorem conds_iff {tm : Template} {l : List (Nat × DbVal)} (h : searchConds tm = .ok l)
    {rows : List (Nat × DbVal)} (hn : (AMap.keys rows).Nodup) :
    (l.all fun c => hasRow rows c.1 c.2) = true ↔ ∀ c ∈ tm, rowIs rows c := by
  induction tm generalizing l with
  | nil => injection h with h; subst h; simp
  | cons c tm ih =>
    unfold searchConds at h
    split at h
    · cases h
    rename_i v hv
    split at h
    · cases h
    rename_i l' hl
    injection h with h; subst h
    simp only [List.all_cons, Bool.and_eq_true, List.forall_mem_cons]
    rw [ih hl, hasRow_get hn]
    refine and_congr_left fun _ => ⟨fun hg => ?_, fun ⟨a, v', h1, h2, h3⟩ => ?_⟩
    · obtain ⟨a, h1, h2⟩ := searchVal_encode hv
      exact ⟨a, v, h1, h2, hg⟩
    · rw [← encode_searchVal hv h1 h2]; exact h3

theorem shown_iff {tm : Template} {o : Obj} : shown tm o = true ↔ mayAsk o tm := by
  unfold shown mayAsk
  cases hs : o.isSensitive with
  | false => simp
  | true =>
    simp only [Bool.true_and, Bool.true_eq_false, false_or]
    unfold checkSensitive
    cases hf : objFactory o with
    | error r => simp
    | ok F =>
      have : (sensitiveLoop F.attrs tm = .ok ()) ↔ ∀ c ∈ tm, ∃ f,
          F.attrs.find? (fun f => f.typ == c.typ) = some f ∧ f.is oaSensitive = false := by
        induction tm with
        | nil => simp [sensitiveLoop]
        | cons c tm ih =>
          unfold sensitiveLoop
          simp only [List.forall_mem_cons]
          rw [← ih]
          cases hff : findF F.attrs c.typ with
          | none =>
            unfold findF at hff
            simp [hff]
          | some f =>
            unfold findF at hff
            simp only [hff, Option.some.injEq]
            cases hs : f.is oaSensitive <;> simp [hs]
      simp only [Except.ok.injEq, exists_eq_left']
      rw [← this]
      rcases hh : sensitiveLoop F.attrs tm with r | u <;> simp

/-- The unique id of a stored object as read from its rows. -/
theorem rows_uid {rows : List (Nat × DbVal)} {o : Obj} (hn : (AMap.keys rows).Nodup)
    (h : decodeRows (Obj.new CK_UNAVAILABLE_INFORMATION) rows = .ok o) (u : Bytes) :
    o.getStr CKA_UNIQUE_ID = .ok u ↔ AMap.get rows CKA_UNIQUE_ID = some (.text u) ∧ validUtf8 u = true := by
  have := decodeRows_find hn h CKA_UNIQUE_ID
  unfold Obj.getStr
  cases hg : AMap.get rows CKA_UNIQUE_ID with
  | none =>
    rw [hg] at this
    have h0 : (Obj.new CK_UNAVAILABLE_INFORMATION).find CKA_UNIQUE_ID = none := rfl
    simp only [this, h0]
    simp
  | some v =>
    rw [hg] at this
    simp only at this
    obtain ⟨a, ha, hf⟩ := this
    simp only [hf]
    unfold decodeRow at ha
    rw [uid_kind] at ha
    simp only at ha
    split at ha
    · injection ha with ha; subst ha
      rename_i w
      simp only [Attr.toStr, Attr.ofString]
      by_cases hv : validUtf8 w = true
      · simp only [hv, if_true]
        constructor
        · intro h; injection h with h; subst h; exact ⟨rfl, hv⟩
        · rintro ⟨h, _⟩; injection h with h; injection h with h; subst h; rfl
      · simp only [hv]
        constructor
        · intro h; cases h
        · rintro ⟨h, h'⟩; injection h with h; injection h with h; subst h; exact absurd h' hv
    · cases ha

/-- What the query and the loop over its answer find. -/
theorem store_search_exact {e : Env} {st : Store} {hd : Handles} {tm : Template} {r : List Nat}
    (ok : TblOk st.db.objs) (hok : HsOk hd) (hr : (st.search e hd tm).1 = .ok r) :
    (∀ n, n ∈ r ↔ ∃ u id rows o, (st.search e hd tm).2.get n = some u ∧ (id, rows) ∈ st.db.objs ∧
      AMap.get rows CKA_UNIQUE_ID = some (.text u) ∧ validUtf8 u = true ∧ internalUid u = false ∧
      (∀ c ∈ tm, rowIs rows c) ∧ decodeRows (Obj.new CK_UNAVAILABLE_INFORMATION) rows = .ok o ∧ mayAsk o tm) ∧
    r.Nodup ∧ ∀ u id rows o, (id, rows) ∈ st.db.objs →
      AMap.get rows CKA_UNIQUE_ID = some (.text u) → validUtf8 u = true → internalUid u = false →
      (∀ c ∈ tm, rowIs rows c) → decodeRows (Obj.new CK_UNAVAILABLE_INFORMATION) rows = .ok o → mayAsk o tm →
      ∃ n ∈ r, (st.search e hd tm).2.get n = some u := by
  unfold Store.search at hr ⊢
  cases hdb : st.db.search e tm with
  | error q => simp only [hdb] at hr; cases hr
  | ok objs =>
    simp only [hdb] at hr ⊢
    obtain ⟨a1, a2, a3⟩ := searchLoop_exact tm objs hok hr
    have hend := (hs_searchLoop tm objs hok).1
    unfold Db.search at hdb
    split at hdb
    · cases hdb
    rename_i conds hc
    split at hdb
    · cases hdb
    obtain ⟨b1, b2, b3⟩ := rowsToObjects_exact hdb
    have mem : ∀ g, g ∈ st.db.objs.filter (fun g => conds.all fun c => hasRow g.2 c.1 c.2) ↔
        g ∈ st.db.objs ∧ ∀ c ∈ tm, rowIs g.2 c := by
      intro g
      rw [List.mem_filter]
      exact and_congr_right fun hg => conds_iff hc (ok.rows g hg)
    have all : ∀ u id rows o, (id, rows) ∈ st.db.objs →
        AMap.get rows CKA_UNIQUE_ID = some (.text u) → validUtf8 u = true → internalUid u = false →
        (∀ c ∈ tm, rowIs rows c) → decodeRows (Obj.new CK_UNAVAILABLE_INFORMATION) rows = .ok o → mayAsk o tm →
        ∃ n ∈ r, (searchLoop tm objs hd).2.get n = some u := by
      intro u id rows o h2 h3 h4 h5 h6 h7 h8
      obtain ⟨o', ho', hd'⟩ := b2 (id, rows) ((mem _).2 ⟨h2, h6⟩)
      simp only at hd'
      rw [h7] at hd'; injection hd' with hd'; subst hd'
      exact a2 o ho' u (shown_iff.2 h8) ((rows_uid (ok.rows _ h2) h7 u).2 ⟨h3, h4⟩) h5
    refine ⟨fun n => ⟨fun hn => ?_, ?_⟩, a3 (b3 ?_), all⟩
    · obtain ⟨o, ho, u, h1, h2, h3, h4⟩ := a1 n hn
      obtain ⟨g, hg, hd⟩ := b1 o ho
      obtain ⟨hg1, hg2⟩ := (mem g).1 hg
      obtain ⟨d1, d2⟩ := (rows_uid (ok.rows g hg1) hd u).1 h2
      exact ⟨u, g.1, g.2, o, h4, hg1, d1, d2, h3, hg2, hd, shown_iff.1 h1⟩
    · rintro ⟨u, id, rows, o, h1, h2, h3, h4, h5, h6, h7, h8⟩
      obtain ⟨m, hm, hg⟩ := all u id rows o h2 h3 h4 h5 h6 h7 h8
      have : m = n := hend.inj hg h1
      rw [← this]; exact hm
    · have hnd : st.db.objs.Pairwise (fun g g' => g.1 ≠ g'.1) := by
        have := ok.ids
        unfold AMap.keys at this
        rw [List.nodup_iff_pairwise_ne, List.pairwise_map] at this
        exact this
      refine List.Pairwise.imp_of_mem ?_ (hnd.filter _)
      intro g g' hg hg' hne o o' ho ho' u hu hu'
      have m1 := ((mem g).1 hg).1
      have m2 := ((mem g').1 hg').1
      have e1 := ((rows_uid (ok.rows g m1) ho u).1 hu).1
      have e2 := ((rows_uid (ok.rows g' m2) ho' u).1 hu').1
      exact hne (congrArg Prod.fst (ok.uids g m1 g' m2 u ((hasRow_get (ok.rows g m1)).2 e1)
        ((hasRow_get (ok.rows g' m2)).2 e2)))

/-- The class an object is treated as is that of its CKA_CLASS. -/
def ClassOk (o : Obj) : Prop := ∀ a, o.find CKA_CLASS = some a → a.toUlong = .ok o.cls

theorem classOk_setAttr {o o' : Obj} {a : Attr} (h : o.setAttr a = .ok o') (hc : ClassOk o) : ClassOk o' := by
  intro b hb
  rw [find_setAttr h] at hb
  unfold Obj.setAttr at h
  by_cases e : a.typ = CKA_CLASS
  · rw [if_pos e] at h hb
    injection hb with hb; subst hb
    split at h
    · cases h
    · rename_i c ha
      injection h with h; subst h; exact ha
  · rw [if_neg e] at h hb
    injection h with h; subst h
    exact hc b hb

theorem classOk_new : ClassOk (Obj.new CK_UNAVAILABLE_INFORMATION) := by
  intro a ha
  have h : (Obj.new CK_UNAVAILABLE_INFORMATION).find CKA_CLASS =
      some (Attr.ofUlong CKA_CLASS CK_UNAVAILABLE_INFORMATION) := rfl
  rw [h] at ha; injection ha with ha; subst ha
  decide +kernel

theorem classOk_rows {rows : List (Nat × DbVal)} {o o' : Obj} (h : decodeRows o rows = .ok o') (hc : ClassOk o) :
    ClassOk o' := by
  induction rows generalizing o with
  | nil => injection h with h; rw [← h]; exact hc
  | cons p rows ih =>
    unfold decodeRows at h
    split at h
    · cases h
    · split at h
      · cases h
      · rename_i o1 h1
        exact ih h (classOk_setAttr h1 hc)

theorem private_kind {o : Obj} {F : Factory} (h : objFactory o = .ok F) (hc : ClassOk o)
    (hs : Obj.secretClass o.cls = true) : ∃ f,
    F.attrs.find? (fun f => f.typ == CKA_PRIVATE) = some f ∧ f.is oaSensitive = false := by
  have key : ∀ k ty, Obj.secretClass k = true → getFactory k ty = .ok F → ∃ f,
      F.attrs.find? (fun f => f.typ == CKA_PRIVATE) = some f ∧ f.is oaSensitive = false := by
    intro k ty hk hF
    have all : (registry.all fun e => !Obj.secretClass e.1.1 ||
        match e.2.attrs.find? (fun f => f.typ == CKA_PRIVATE) with
        | some f => !f.is oaSensitive
        | none => false) = true := by decide +kernel
    rw [List.all_eq_true] at all
    have := all _ (getFactory_mem hF)
    simp only [hk, Bool.not_true, Bool.false_or] at this
    split at this
    · rename_i f hf; exact ⟨f, hf, by simpa using this⟩
    · cases this
  unfold objFactory at h
  split at h
  · cases h
  rename_i cls hcls
  simp only at h
  split at h
  · cases h
  rename_i ty _
  have : cls = o.cls := by
    unfold Obj.getUlong at hcls
    split at hcls
    · cases hcls
    · rename_i a ha
      rw [hc a ha] at hcls; injection hcls with hcls; exact hcls.symm
  subst this
  exact key _ ty hs h

/-- Asking besides for CKA_PRIVATE is asking for nothing secret. -/
theorem mayAsk_private {o : Obj} (hc : ClassOk o) {tm : Template} {c : CkAttr} (ht : c.typ = CKA_PRIVATE) :
    mayAsk o (tm ++ [c]) ↔ mayAsk o tm := by
  unfold mayAsk
  cases hs : o.isSensitive with
  | false => simp
  | true =>
    have hk : Obj.secretClass o.cls = true := by
      unfold Obj.isSensitive at hs
      split at hs
      · assumption
      · cases hs
    simp only [Bool.true_eq_false, false_or]
    constructor
    · rintro ⟨F, h1, h2⟩
      exact ⟨F, h1, fun c hc => h2 c (List.mem_append_left _ hc)⟩
    · rintro ⟨F, h1, h2⟩
      refine ⟨F, h1, fun d hd => ?_⟩
      rcases List.mem_append.1 hd with e | e
      · exact h2 d e
      · have := List.mem_singleton.1 e; subst this
        rw [ht]; exact private_kind h1 hc hk

theorem rowIs_private (rows : List (Nat × DbVal)) :
    rowIs rows (CkAttr.ofBool CKA_PRIVATE false) ↔ AMap.get rows CKA_PRIVATE = some (.int 0) := by
  have h1 : Attr.fromCk (CkAttr.ofBool CKA_PRIVATE false) = .ok (Attr.ofBool CKA_PRIVATE false) := by decide +kernel
  have h2 : encodeAttr (Attr.ofBool CKA_PRIVATE false) = .ok (some (.int 0)) := by decide +kernel
  constructor
  · rintro ⟨a, v, e1, e2, e3⟩
    rw [h1] at e1; injection e1 with e1; subst e1
    rw [h2] at e2; injection e2 with e2; injection e2 with e2; subst e2
    exact e3
  · intro h
    exact ⟨_, _, h1, h2, h⟩

/-- What C_FindObjectsInit finds in a token. -/
theorem searchObjects_exact {e : Env} {t : Token} {tm : Template} {l : List Nat} (ok : HOk t)
    (tok : TblOk t.store.db.objs) (h : (t.searchObjects e tm).1 = .ok l) :
    (∀ n, n ∈ l ↔ (∃ o, AMap.get t.sess n = some o ∧ mayAsk o tm ∧
        ∀ c ∈ tm, ∃ a ∈ o.attrs, a.typ = c.typ ∧ a.value = c.toBuf) ∨
      ∃ u id rows o, (t.searchObjects e tm).2.handles.get n = some u ∧ (id, rows) ∈ t.store.db.objs ∧
        AMap.get rows CKA_UNIQUE_ID = some (.text u) ∧ validUtf8 u = true ∧ internalUid u = false ∧
        (∀ c ∈ tm, rowIs rows c) ∧ (t.logged = none → AMap.get rows CKA_PRIVATE = some (.int 0)) ∧
        decodeRows (Obj.new CK_UNAVAILABLE_INFORMATION) rows = .ok o ∧ mayAsk o tm) ∧
    ((∀ n o u id rows, AMap.get t.sess n = some o → o.getStr CKA_UNIQUE_ID = .ok u →
      (id, rows) ∈ t.store.db.objs → AMap.get rows CKA_UNIQUE_ID ≠ some (.text u)) → l.Nodup) ∧
    ∀ u id rows o, (id, rows) ∈ t.store.db.objs →
      AMap.get rows CKA_UNIQUE_ID = some (.text u) → validUtf8 u = true → internalUid u = false →
      (∀ c ∈ tm, rowIs rows c) → (t.logged = none → AMap.get rows CKA_PRIVATE = some (.int 0)) →
      decodeRows (Obj.new CK_UNAVAILABLE_INFORMATION) rows = .ok o → mayAsk o tm →
      ∃ n ∈ l, (t.searchObjects e tm).2.handles.get n = some u := by
  have ses : ∀ n, n ∈ t.searchSession tm ↔ ∃ o, AMap.get t.sess n = some o ∧ mayAsk o tm ∧
        ∀ c ∈ tm, ∃ a ∈ o.attrs, a.typ = c.typ ∧ a.value = c.toBuf := by
    intro n
    unfold Token.searchSession
    rw [List.mem_map]
    have mt : ∀ o : Obj, o.matchTemplate tm = true ↔
        ∀ c ∈ tm, ∃ a ∈ o.attrs, a.typ = c.typ ∧ a.value = c.toBuf := by
      intro o
      unfold Obj.matchTemplate
      simp only [List.all_eq_true, List.any_eq_true, Attr.matchCk, Bool.and_eq_true, beq_iff_eq]
      exact forall_congr' fun c => forall_congr' fun _ => exists_congr fun a =>
        and_congr_right fun _ => and_congr_right fun _ => eq_comm
    constructor
    · rintro ⟨⟨k, o⟩, hq, e1⟩
      rw [List.mem_filter] at hq
      obtain ⟨hm, hf⟩ := hq
      have hg : AMap.get t.sess k = some o := AMap.get_of_mem ok.nd hm
      obtain ⟨e2, _⟩ := ok.sess _ _ hg
      have : n = k := by rw [← e1]; exact e2
      subst this
      rw [Bool.and_eq_true] at hf
      exact ⟨o, hg, shown_iff.1 hf.1, (mt o).1 hf.2⟩
    · rintro ⟨o, hg, h1, h2⟩
      refine ⟨(n, o), ?_, (ok.sess _ _ hg).1⟩
      rw [List.mem_filter]
      refine ⟨AMap.get_mem hg, ?_⟩
      rw [Bool.and_eq_true]
      exact ⟨shown_iff.2 h1, (mt o).2 h2⟩
  have nds : (t.searchSession tm).Nodup := by
    have : (t.sess.filter fun p => !(p.2.isSensitive && (match checkSensitive p.2 tm with
        | .error _ => true
        | .ok () => false)) && p.2.matchTemplate tm).map Prod.fst = t.searchSession tm := by
      unfold Token.searchSession
      refine List.map_congr_left fun p hp => ?_
      exact (ok.sess p.1 p.2 (AMap.get_of_mem ok.nd (List.mem_filter.1 hp).1)).1.symm
    rw [← this]
    exact List.Sublist.nodup (List.Sublist.map _ List.filter_sublist) ok.nd
  unfold Token.searchObjects at h ⊢
  simp only at h ⊢
  generalize htm : (if t.loggedIn = true then tm else tm ++ [CkAttr.ofBool CKA_PRIVATE false]) = tm' at h ⊢
  have sto := fun r => store_search_exact (e := e) (st := t.store) (hd := t.handles) (tm := tm') (r := r) tok ok.hs
  have hend : HsOk (t.store.search e t.handles tm').2 ∧ ∀ n u, t.handles.get n = some u →
      (t.store.search e t.handles tm').2.get n = some u := by
    unfold Store.search
    split
    · exact ⟨ok.hs, fun _ _ h => h⟩
    · rename_i objs _
      obtain ⟨h1, h2, _⟩ := hs_searchLoop tm' objs ok.hs
      exact ⟨h1, h2.all⟩
  generalize t.store.search e t.handles tm' = p at h sto hend ⊢
  obtain ⟨r, hd⟩ := p
  cases r with
  | error r => cases h
  | ok r =>
    simp only at h sto hend ⊢
    injection h with h; subst h
    obtain ⟨s1, s2, s3⟩ := sto r rfl
    have cond : ∀ rows o, ((∀ c ∈ tm', rowIs rows c) ∧
        decodeRows (Obj.new CK_UNAVAILABLE_INFORMATION) rows = .ok o ∧ mayAsk o tm') ↔
        ((∀ c ∈ tm, rowIs rows c) ∧ (t.logged = none → AMap.get rows CKA_PRIVATE = some (.int 0)) ∧
        decodeRows (Obj.new CK_UNAVAILABLE_INFORMATION) rows = .ok o ∧ mayAsk o tm) := by
      intro rows o
      subst htm
      cases hl : t.logged with
      | some u =>
        have : t.loggedIn = true := by simp [Token.loggedIn, hl]
        simp only [this, if_true]
        simp
      | none =>
        have : t.loggedIn = false := by simp [Token.loggedIn, hl]
        simp only [this, Bool.false_eq_true, if_false, forall_const]
        constructor
        · rintro ⟨a1, a2, a3⟩
          have hco := classOk_rows a2 classOk_new
          exact ⟨fun c hc => a1 c (List.mem_append_left _ hc),
            (rowIs_private rows).1 (a1 _ (List.mem_append_right _ (List.mem_singleton.2 rfl))), a2,
            (mayAsk_private hco rfl).1 a3⟩
        · rintro ⟨a1, a0, a2, a3⟩
          have hco := classOk_rows a2 classOk_new
          refine ⟨fun c hc => ?_, a2, (mayAsk_private hco rfl).2 a3⟩
          rcases List.mem_append.1 hc with e | e
          · exact a1 c e
          · have := List.mem_singleton.1 e; subst this
            exact (rowIs_private rows).2 a0
    have s1 : ∀ n, n ∈ r ↔ ∃ u id rows o, hd.get n = some u ∧ (id, rows) ∈ t.store.db.objs ∧
        AMap.get rows CKA_UNIQUE_ID = some (.text u) ∧ validUtf8 u = true ∧ internalUid u = false ∧
        (∀ c ∈ tm, rowIs rows c) ∧ (t.logged = none → AMap.get rows CKA_PRIVATE = some (.int 0)) ∧
        decodeRows (Obj.new CK_UNAVAILABLE_INFORMATION) rows = .ok o ∧ mayAsk o tm := by
      intro n
      rw [s1]
      refine exists_congr fun u => exists_congr fun id => exists_congr fun rows => exists_congr fun o => ?_
      refine and_congr_right fun _ => and_congr_right fun _ => and_congr_right fun _ =>
        and_congr_right fun _ => and_congr_right fun _ => ?_
      exact cond rows o
    refine ⟨fun n => ?_, fun hap => ?_, fun u id rows o h1 h2 h3 h4 h5 h6 h7 h8 => ?_⟩
    · rw [List.mem_append, ses n, s1 n]
    · rw [List.nodup_append]
      refine ⟨nds, s2, fun n hn m hm e => ?_⟩
      subst e
      obtain ⟨o, ho, _⟩ := (ses n).1 hn
      obtain ⟨u, id, rows, _, h1, h2, h3, _⟩ := (s1 n).1 hm
      obtain ⟨_, u', hu', hs'⟩ := ok.sess n o ho
      have := hend.2 n u' hu'
      rw [h1] at this; injection this with this; subst this
      exact hap n o u id rows ho hs' h2 h3
    · obtain ⟨c1, c2, c3⟩ := (cond rows o).2 ⟨h5, h6, h7, h8⟩
      obtain ⟨n, hn, hg⟩ := s3 u id rows o h1 h2 h3 h4 c1 c2 c3
      exact ⟨n, List.mem_append_right _ hn, hg⟩

section
variable {M : Mechs} {C : Crypto} {O : Oracle}

/-- Calls on operations other than C_SessionCancel leave the search alone. -/
macro "sq_s" : tactic => `(tactic| (
  repeat' split
  all_goals first | rfl | skip
  all_goals
    simp only
    repeat' split
    all_goals rfl))

theorem fnFeed_sq (e : Env) (k : OpKind) (d : Bytes) (s : Session) :
    (fnFeed M e k d s).2.search = s.search := by unfold fnFeed; sq_s

theorem fnCrypt_sq (e : Env) (k : OpKind) (a : Act) (i : OpIn) (s : Session) :
    (fnCrypt M e k a i s).2.search = s.search := by unfold fnCrypt; sq_s

theorem fnSign_sq (e : Env) (a : Act) (i : OpIn) (s : Session) (t : Token) :
    (fnSign M C e a i s t).2.1.search = s.search := by unfold fnSign; sq_s

theorem fnVerify_sq (e : Env) (k : OpKind) (a : Act) (i : OpIn) (s : Session) (t : Token) :
    (fnVerify M C e k a i s t).2.1.search = s.search := by unfold fnVerify; sq_s

theorem fnDigest_sq (e : Env) (a : Act) (i : OpIn) (s : Session) : (fnDigest M e a i s).2.search = s.search := by
  unfold fnDigest; sq_s

theorem fnMessage_sq (e : Env) (k : OpKind) (a : Act) (i : OpIn) (s : Session) (t : Token) :
    (fnMessage M e k a i s t).2.search = s.search := by unfold fnMessage; sq_s

theorem fnDual_sq (e : Env) (k1 k2 : OpKind) (i : OpIn) (s : Session) :
    (fnDual M e k1 k2 i s).2.search = s.search := by
  unfold fnDual
  split
  · rfl
  · have a := fnCrypt_sq (M := M) (e.sub 0) k1 .update i s
    generalize fnCrypt M (e.sub 0) k1 .update i s = p at a ⊢
    obtain ⟨r, s1⟩ := p
    simp only at a ⊢
    split
    · rename_i b
      have c := fnFeed_sq (M := M) (e.sub 1) k2 (if k1 = .enc then i.data else b) s1
      generalize fnFeed M (e.sub 1) k2 (if k1 = .enc then i.data else b) s1 = q at c ⊢
      obtain ⟨r, s2⟩ := q
      cases r <;> exact c.trans a
    · exact a

theorem fnCancel_sq {f : Nat} (hf : f &&& CKF_FIND_OBJECTS = 0) (s : Session) :
    (fnCancel f s).2.search = s.search := by
  have c : ∀ (p : Prop) [Decidable p] (k : OpKind) (x : Session), x.search = s.search →
      (if p then x.cancelOp k else x).search = s.search := by
    intro p _ k x hx; split <;> exact hx
  unfold fnCancel
  have h3 : (((s.cancelIf f CKF_MESSAGE_ENCRYPT .msgEnc).cancelIf f CKF_MESSAGE_DECRYPT .msgDec).cancelSearch
      f).search = s.search := by
    unfold Session.cancelSearch
    rw [if_neg (by simpa using hf)]
    exact c _ _ _ (c _ _ _ rfl)
  have h8 : (s.cancelAll f).search = s.search := c _ _ _ (c _ _ _ (c _ _ _ (c _ _ _ (c _ _ _ h3))))
  split <;> exact h8

theorem opStep_sq (e : Env) (h : Nat) (c : OCall) (s : Session) (t : Token)
    (hc : ∀ f, c = .cancel f → f &&& CKF_FIND_OBJECTS = 0) :
    (opStep M C e h c s t).2.1.search = s.search := by
  cases c with
  | opInit k mech key sig =>
    cases mech with
    | none => rfl
    | some p =>
      obtain ⟨m, param⟩ := p
      simp only [opStep]
      split
      · unfold fnInitDigest; sq_s
      · unfold fnInitKey; sq_s
  | opRun k a i =>
    cases k <;> cases a <;> first
      | rfl
      | exact fnCrypt_sq _ _ _ _ _
      | exact fnFeed_sq _ _ _ _
      | exact fnMessage_sq _ _ _ _ _ _
      | exact fnDigest_sq _ _ _ _
      | exact fnSign_sq _ _ _ _ _
      | exact fnVerify_sq _ _ _ _ _ _
  | digestKey key =>
    simp only [opStep]
    unfold fnDigestKey
    repeat' split
    all_goals first | rfl | exact fnFeed_sq _ _ _ _
  | digestEncrypt i => exact fnDual_sq _ _ _ _ _
  | decryptDigest i => exact fnDual_sq _ _ _ _ _
  | signEncrypt i => exact fnDual_sq _ _ _ _ _
  | decryptVerify i => exact fnDual_sq _ _ _ _ _
  | cancel f => exact fnCancel_sq (hc f rfl) _
  | generatePair m p pub priv => simp only [opStep]; split <;> rfl
  | derive m p key tm => simp only [opStep]; split <;> rfl
  | _ => rfl

/-- The handles an answer of C_FindObjects takes from the search of session `h`. -/
def took (h : Nat) (c : Call) (o : Out) : List Nat :=
  match c, o with
  | .sess h' (.find _), .handles l => if h' = h then l else []
  | _, _ => []

theorem sessStep_took {e : Env} {h : Nat} {c : SCall} {x : Session} {t : Token} {l : List Nat}
    (hl : x.search = some l) (hc : c ≠ .findFinal) :
    ∃ l', (sessStep C O e h c x t).2.1.search = some l' ∧
      l = took h (.sess h c) (sessStep C O e h c x t).1 ++ l' := by
  cases c
  case findInit tm =>
    simp only [sessStep]
    split
    · exact ⟨l, hl, rfl⟩
    · have : x.newSearch e t tm = (.error .operationActive, x, t) := by unfold Session.newSearch; rw [hl]
      simp only [this]
      exact ⟨l, hl, rfl⟩
  case find m =>
    simp only [sessStep, Session.findObjects]
    cases hk : x.checkLogin with
    | error r => exact ⟨l, hl, rfl⟩
    | ok _ =>
      simp only [hl]
      exact ⟨l.drop m, rfl, by simp [took]⟩
  case findFinal => exact absurd rfl hc
  all_goals
    refine ⟨l, ?_, ?_⟩
    · simp only [sessStep]
      repeat' split
      all_goals exact hl
    · rfl

/-- The search of a session goes on through any call on something else that does not end it. -/
theorem step_same {e : Env} {s : St} {i h : Nat} {c : Call} {sl : Slot} {x : Session} (hi : Inv s)
    (hs : AMap.get s.slots i = some sl) (hx : AMap.get sl.sessions h = some x)
    (hc : endsSearch i h c = false) (hne : ∀ c', c ≠ .sess h c') :
    ∃ sl' x', AMap.get (step M C O e s c).2.slots i = some sl' ∧ AMap.get sl'.sessions h = some x' ∧
      x'.search = x.search := by
  have hm := (hi.link h i).2 ⟨sl, x, hs, hx⟩
  have same : ∀ {t : St}, AMap.get t.slots i = some sl →
      ∃ sl' x', AMap.get t.slots i = some sl' ∧ AMap.get sl'.sessions h = some x' ∧ x'.search = x.search :=
    fun ht => ⟨sl, x, ht, hx, rfl⟩
  have put : ∀ {t : St} {j : Nat} {slj : Slot} (_ : AMap.get t.slots i = some sl)
      (_ : j = i → ∃ x', AMap.get slj.sessions h = some x' ∧ x'.search = x.search),
      ∃ sl' x', AMap.get (t.setSlot j slj).slots i = some sl' ∧ AMap.get sl'.sessions h = some x' ∧
        x'.search = x.search := by
    intro t j slj ht hj
    by_cases ij : j = i
    · subst ij
      obtain ⟨x', h1, h2⟩ := hj rfl
      exact ⟨slj, x', by rw [get_setSlot ht, if_pos rfl], h1, h2⟩
    · exact ⟨sl, x, by rw [get_setSlot_ne ij]; exact ht, hx, rfl⟩
  have at' : ∀ {j : Nat} {slj : Slot}, AMap.get s.slots j = some slj → j = i → slj = sl := by
    intro j slj hj e
    subst e; rw [hs] at hj; injection hj with hj; exact hj.symm
  have inval : ∀ {l : List (Nat × Session)} {x : Session}, AMap.get l h = some x →
      ∃ x', AMap.get (Slot.invalidate l) h = some x' ∧ x'.search = x.search := by
    intro l x hx
    rw [get_invalidate, hx]
    exact ⟨_, rfl, changeState_search x none⟩
  have loop : ∀ {u : Option User} {l l' : List (Nat × Session)} {r : Option Rv} {x : Session},
      Slot.changeLoop u l = (r, l') → AMap.get l h = some x →
      ∃ x', AMap.get l' h = some x' ∧ x'.search = x.search := by
    intro u l l' r x hc hx
    rcases get_changeLoop hc h with e | e
    · exact ⟨x, by rw [e]; exact hx, rfl⟩
    · rw [hx] at e
      exact ⟨_, e, changeState_search x u⟩
  have mod : ∀ {l : List (Nat × Session)} {k : Nat} {f : Session → Session} {x : Session},
      (h = k → (f x).search = x.search) → AMap.get l h = some x →
      ∃ x', AMap.get (AMap.modify l k f) h = some x' ∧ x'.search = x.search := by
    intro l k f x hf hx
    rw [AMap.get_modify]
    split
    · rename_i e
      rw [hx]; exact ⟨_, rfl, hf e.symm⟩
    · exact ⟨x, hx, rfl⟩
  cases c with
  | «initialize» conf =>
    refine same ?_
    show AMap.get (fnInitialize C e s conf).2.slots i = some sl
    unfold fnInitialize
    by_cases h : s.ready = true
    · rw [if_pos h]
      exact initSlots_keep hs
    · have := (hi.off (by simpa [St.ready] using h)).1
      rw [this] at hs; cases hs
  | finalize => cases hc
  | crash => cases hc
  | openSession j f =>
    simp only [step, fnOpen]
    split
    · exact same hs
    · rename_i slj hg
      obtain ⟨hr, hj⟩ := getSlot_ok hg
      split
      · exact same hs
      · split
        · exact same hs
        · split
          · exact same hs
          · rename_i y hy
            have hlt := (hi.bound h i hm).2
            refine put (t := s) (j := j) (slj := { slj with sessions := AMap.insert slj.sessions s.next y }) hs ?_
            intro e
            have := at' hj e; subst this
            refine ⟨x, ?_, rfl⟩
            simp only [AMap.get_insert]
            rw [if_neg (by omega)]
            exact hx
  | closeSession h' =>
    have hh : h' ≠ h := by
      intro e; subst e; simp [endsSearch] at hc
    simp only [step, fnClose]
    split
    · exact same hs
    · rename_i j slj hg
      obtain ⟨hr, hm', hj⟩ := getSessionSlot_ok hg
      split
      · exact same hs
      · refine put (t := s) (j := j) hs ?_
        intro e
        have := at' hj e; subst this
        refine ⟨x, ?_, rfl⟩
        simp only [AMap.get_erase]
        rw [if_neg hh]
        exact hx
  | closeAll j =>
    have hh : j ≠ i := by
      intro e; subst e; simp [endsSearch] at hc
    simp only [step, fnCloseAll]
    split
    · exact same hs
    · have hs2 : AMap.get ({ s with smap := AMap.retain s.smap fun _ v => v ≠ j } : St).slots i = some sl := hs
      split
      · exact same hs2
      · split
        · exact put hs2 (fun e => absurd e hh)
        · exact put hs2 (fun e => absurd e hh)
  | login h' ut pin =>
    simp only [step, fnLogin]
    split
    · exact same hs
    · rename_i j slj y hg
      obtain ⟨hr, hm', hj, hy⟩ := getSession_ok hg
      repeat' split
      all_goals first
        | exact same hs
        | (refine put hs ?_
           intro e; have := at' hj e; subst this
           first
             | exact ⟨x, hx, rfl⟩
             | (dsimp only; exact mod (fun _ => rfl) hx)
             | exact inval hx
             | exact loop rfl hx
             | (obtain ⟨y1, h1, h2⟩ := loop (u := Token.userOf ut) rfl hx
                obtain ⟨y2, h3, h4⟩ := inval h1
                exact ⟨y2, h3, h4.trans h2⟩))
  | logout h' =>
    simp only [step, fnLogout]
    split
    · exact same hs
    · rename_i j slj y hg
      obtain ⟨hr, hm', hj, hy⟩ := getSession_ok hg
      repeat' split
      all_goals first
        | exact same hs
        | (refine put hs ?_
           intro e; have := at' hj e; subst this
           first
             | exact ⟨x, hx, rfl⟩
             | exact inval hx)
  | initToken j pin l =>
    simp only [step, fnInitToken]
    split
    · exact same hs
    · rename_i slj hg
      obtain ⟨hr, hj⟩ := getSlot_ok hg
      split
      · exact same hs
      · repeat' split
        all_goals
          refine put hs ?_
          intro e; have := at' hj e; subst this
          exact ⟨x, hx, rfl⟩
  | getTokenInfo j =>
    simp only [step]
    repeat' split
    all_goals exact same hs
  | sess h' c =>
    have hh : h' ≠ h := fun e => hne c (by rw [e])
    simp only [step]
    split
    · exact same hs
    · rename_i j slj y hg
      obtain ⟨hr, hm', hj, hy⟩ := getSession_ok hg
      refine put hs ?_
      intro e; have := at' hj e; subst this
      dsimp only
      exact mod (fun e => absurd e.symm hh) hx
  | op h' c =>
    simp only [step]
    split
    · exact same hs
    · rename_i j slj y hg
      obtain ⟨hr, hm', hj, hy⟩ := getSession_ok hg
      refine put hs ?_
      intro e; have := at' hj e; subst this
      dsimp only
      refine mod (fun e' => ?_) hx
      subst e'
      rw [hx] at hy; injection hy with hy; subst hy
      refine opStep_sq _ _ _ _ _ (fun f hf => ?_)
      subst hf
      simpa [endsSearch] using hc

/-- The search of a session goes on through any call that does not end it, losing only what
C_FindObjects answered. -/
theorem step_took {e : Env} {s : St} {i h : Nat} {c : Call} {sl : Slot} {x : Session} {l : List Nat} (hi : Inv s)
    (hs : AMap.get s.slots i = some sl) (hx : AMap.get sl.sessions h = some x) (hl : x.search = some l)
    (hc : endsSearch i h c = false) :
    ∃ sl' x' l', AMap.get (step M C O e s c).2.slots i = some sl' ∧ AMap.get sl'.sessions h = some x' ∧
      x'.search = some l' ∧ l = took h c (step M C O e s c).1 ++ l' := by
  by_cases hne : ∃ c', c = .sess h c'
  · obtain ⟨c', rfl⟩ := hne
    have hm := (hi.link h i).2 ⟨sl, x, hs, hx⟩
    obtain ⟨sl1, x1, hg, hs1, hx1⟩ := getSession_live hi hm
    rw [hs] at hs1; injection hs1 with hs1; subst hs1
    rw [hx] at hx1; injection hx1 with hx1; subst hx1
    obtain ⟨l', h1, h2⟩ := sessStep_took (C := C) (O := O) (e := e) (h := h) (c := c') (t := sl.token) hl
      (by intro h; subst h; simp [endsSearch] at hc)
    simp only [step, hg]
    refine ⟨_, _, l', by rw [get_setSlot hs, if_pos rfl], ?_, h1, h2⟩
    simp only [AMap.get_modify, if_true, hx]
    rfl
  · have hne : ∀ c', c ≠ .sess h c' := fun c' h => hne ⟨c', h⟩
    obtain ⟨sl', x', h1, h2, h3⟩ := step_same (M := M) (C := C) (O := O) (e := e) hi hs hx hc hne
    refine ⟨sl', x', l, h1, h2, h3.trans hl, ?_⟩
    have : ∀ o, took h c o = [] := by
      intro o
      unfold took
      split
      · rename_i h' m _
        rw [if_neg]
        intro e; subst e; exact hne _ rfl
      · rfl
    rw [this]; rfl

/-- Over a whole run without an end of the search, what C_FindObjects answered and what is still to
come make up the list. -/
theorem run_took (tr : Trace) {s : St} {i h : Nat} {sl : Slot} {x : Session} {l : List Nat} (hi : Inv s)
    (hs : AMap.get s.slots i = some sl) (hx : AMap.get sl.sessions h = some x) (hl : x.search = some l)
    (hc : ∀ p ∈ tr, endsSearch i h p.2 = false) :
    ∃ sl' x' l', AMap.get (run M C O s tr).slots i = some sl' ∧ AMap.get sl'.sessions h = some x' ∧
      x'.search = some l' ∧ l = found M C O h s tr ++ l' := by
  induction tr generalizing s sl x l with
  | nil => exact ⟨sl, x, l, hs, hx, hl, rfl⟩
  | cons p tr ih =>
    obtain ⟨e, c⟩ := p
    obtain ⟨sl1, x1, l1, a1, a2, a3, a4⟩ := step_took (M := M) (C := C) (O := O) (e := e) hi hs hx hl
      (hc _ (List.mem_cons_self ..))
    obtain ⟨sl2, x2, l2, b1, b2, b3, b4⟩ := ih (inv_step M O e s c hi) a1 a2 a3
      (fun p hp => hc p (List.mem_cons_of_mem _ hp))
    refine ⟨sl2, x2, l2, b1, b2, b3, ?_⟩
    rw [a4, b4, ← List.append_assoc]
    rfl

end

end Kry
