import Verif.Props.C70
import Verif.Model.NssTok

/-! C71: destroying an object of an NSS database.  C72: without a login nothing private is found or read. -/

namespace Kry
open Spec (askable holdsCol tidy)

variable {N : NssLib}

theorem fetch_db (e : Env) (s : Nss) (h : Handles) (n : Nat) (tm : Template) : (s.fetch N e h n tm).2.db = s.db := by
  have fin : ∀ (c : Res Obj × NssKeys), ((match c with
      | (.error r, k) => (.error r, { s with keys := k })
      | (.ok o, k) => match nssAddBack (tm.map CkAttr.typ) nssSkipped o with
        | .error r => (.error r, { s with keys := k })
        | .ok o => (.ok { o with handle := n }, { s with keys := k })) : Res Obj × Nss).2.db = s.db := by
    intro c
    repeat' split
    all_goals rfl
  unfold Nss.fetch
  split
  · rfl
  split
  · rfl
  split
  · rfl
  split
  · rfl
  exact fin _

/-- **C71 (partial).**  After a C_DestroyObject that succeeds the handle is refused and the other handles name what they named; one that fails changes neither
the database nor the handles. -/
theorem C71_dead_partial (e : Env) (s s' : Nss) (hs h' : Handles) (n : Nat) (r : Res Unit) (h : s.destroyObject N e hs n = (r, s', h')) :
    s'.db = s.db ∧ (r ≠ .ok () → h' = hs) ∧
    (r = .ok () → (∀ m, m ≠ n → h'.get m = hs.get m) ∧ ∀ e' s2 tm, (Nss.fetch N e' s2 h' n tm).1 = .error .objectHandleInvalid) := by
  unfold Nss.destroyObject at h
  have hdb := fetch_db (N := N) e s hs n [⟨CKA_DESTROYABLE, .null 0⟩]
  generalize s.fetch N e hs n [⟨CKA_DESTROYABLE, .null 0⟩] = x at h hdb
  obtain ⟨q, s1⟩ := x
  cases q with
  | error q =>
    simp only at h hdb
    injection h with h1 h2
    injection h2 with h2 h3
    subst h1; subst h2; subst h3
    exact ⟨hdb, fun _ => rfl, fun hx => by cases hx⟩
  | ok o =>
    simp only at h hdb
    split at h
    · injection h with h1 h2
      injection h2 with h2 h3
      subst h1; subst h2; subst h3
      exact ⟨hdb, fun _ => rfl, fun hx => by cases hx⟩
    · injection h with h1 h2
      injection h2 with h2 h3
      subst h1; subst h2; subst h3
      refine ⟨hdb, fun hx => absurd rfl hx, fun _ => ⟨?_, ?_⟩⟩
      · intro m hm
        rw [get_remove, if_neg (fun hx => hm hx.symm)]
      · intro e' s2 tm
        unfold Nss.fetch
        rw [get_remove, if_pos rfl]

/-- **C71 is violated.**  The object that was destroyed, with CKR_OK, is still in the database: any search by values it has finds it again. -/
theorem C71_back_violation (e : Env) (s s' : Nss) (hs h' : Handles) (n : Nat) (h : s.destroyObject N e hs n = (.ok (), s', h'))
    (ok : HsOk hs) (hd : tidy s.db) (t : NssTbl) (r : Nat × NssRow) (hr : r ∈ s.db.rows t)
    (e2 : Env) (tm : Template) (ha : ∀ a ∈ tm, askable a ∧ holdsCol r.2 a) (l : List Nat) (h'' : Handles) (hsr : s'.search e2 h' tm = (.ok l, h'')) :
    ∃ m ∈ l, h''.get m = some (nssIdFormat t r.1) := by
  obtain ⟨hdb, _, _⟩ := C71_dead_partial e s s' hs h' n _ h
  have ok' : HsOk h' := by
    unfold Nss.destroyObject at h
    repeat' split at h
    all_goals (injection h with h1 h2; injection h2 with h2 h3; subst h3)
    · exact ok
    · exact ok
    · exact (hs_remove (D := fun _ => True) ok trivial).1
  obtain ⟨_, _, g3, _⟩ := C70_exact_partial e2 s' h' h'' tm l (by rw [hdb]; exact hd) ok' (fun a hx => (ha a hx).1) hsr
  exact g3 t r (by rw [hdb]; exact hr) (fun a hx => (ha a hx).2)

/-- A key that may be destroyed. -/
def exNssGone : Obj := exNssKeyOf [Attr.ofBytes CKA_ID [1, 2], Attr.ofBool CKA_DESTROYABLE true]

/-- Its store. -/
def exNssGoneStored : Res Nat × Nss × Handles := exNssIn.store exNss (exPlaces 9) Handles.new exNssGone

/-- Its end. -/
def exNssGoneEnd : Res Unit × Nss × Handles := exNssGoneStored.2.1.destroyObject exNss (exCalm 0) exNssGoneStored.2.2 1

/-- The search for it. -/
def exNssGoneFound : Res (List Nat) × Handles := exNssGoneEnd.2.1.search (exCalm 0) exNssGoneEnd.2.2 [CkAttr.mk' CKA_ID [1, 2]]

set_option maxRecDepth 20000 in
/-- Witness of `C71_dead_partial` and `C71_back_violation`: the key is destroyed, found again, and read. -/
theorem C71_witness : exNssGoneEnd.1 = .ok () ∧ exNssGoneFound.1 = .ok [2] ∧
    ((okNssObj (exNssGoneEnd.2.1.fetch exNss (exCalm 0) exNssGoneFound.2 2 []).1).toOption.bind fun l => l.find? fun a => a.typ == CKA_VALUE) =
      some (Attr.ofBytes CKA_VALUE [0xa5, 0x00, 0x5a]) := by
  decide +kernel

/-! ## C72 -/

theorem params_last : ∀ (tm : Template) (b : Bytes) (t : Nat) (ps : List (Nat × Bytes)), attrKind t = some .bool → b ≠ [] →
    nssParams (tm ++ [CkAttr.mk' t b]) = .ok ps → (t, b) ∈ ps := by
  intro tm b t
  induction tm with
  | nil =>
    intro ps hk hb h
    rw [List.nil_append, nssParams] at h
    simp only [hk] at h
    have : nssParamVal .bool (CkAttr.mk' t b) = .ok b := by
      unfold nssParamVal
      exact if_neg (fun hx => hb (List.length_eq_zero_iff.1 hx))
    simp only [this, nssParams] at h
    injection h with h; subst h
    exact .head _
  | cons a tm ih =>
    intro ps hk hb h
    rw [List.cons_append, nssParams] at h
    split at h
    · cases h
    split at h
    · cases h
    split at h
    · cases h
    rename_i qs hq
    injection h with h; subst h
    exact .tail _ (ih qs hk hb hq)

/-- **C72 (partial).**  A search without a login, whatever the template, finds only objects stored as not private. -/
theorem C72_search_partial (e : Env) (s : Nss) (hs h' : Handles) (tm : Template) (l : List Nat) (ok : HsOk hs)
    (h : s.searchObjects e hs false tm = (.ok l, h')) :
    ∀ n ∈ l, ∃ t, ∃ r ∈ s.db.rows t, h'.get n = some (nssIdFormat t r.1) ∧ AMap.get r.2 CKA_PRIVATE = some [0] := by
  unfold Nss.searchObjects at h
  simp only [Bool.false_eq_true, if_false] at h
  unfold Nss.search at h
  split at h
  · cases h
  rename_i ids hids
  obtain ⟨_, _, _, g4⟩ := nssHandles_ok ids hs l h' ok h
  intro n hn
  obtain ⟨u, hu, hg⟩ := g4 n hn
  unfold NssDb.searchIds at hids
  split at hids
  · cases hids
  · injection hids with hids; subst hids; cases hu
  · rename_i pu pr hx
    split at hids
    · cases hids
    rename_i ps hps
    split at hids
    · cases hids
    split at hids
    · cases hids
    injection hids with hids; subst hids
    have hm := params_last tm [0] CKA_PRIVATE ps (by decide +kernel) (by decide) hps
    have sel : ∀ t, ∀ v ∈ (nssSelect ps (s.db.rows t)).map (nssIdFormat t), ∃ r ∈ s.db.rows t, v = nssIdFormat t r.1 ∧ AMap.get r.2 CKA_PRIVATE = some [0] := by
      intro t v hv
      obtain ⟨i, hi, hv⟩ := List.mem_map.1 hv
      obtain ⟨r, hr, hri⟩ := List.mem_map.1 hi
      obtain ⟨hr1, hr2⟩ := List.mem_filter.1 hr
      refine ⟨r, hr1, by rw [hri, hv], ?_⟩
      have := List.all_eq_true.1 hr2 _ hm
      simpa using this
    rcases List.mem_append.1 hu with hu | hu
    · split at hu
      · obtain ⟨r, hr, h1, h2⟩ := sel .pub u hu
        exact ⟨.pub, r, hr, by rw [hg, h1], h2⟩
      · cases hu
    · split at hu
      · obtain ⟨r, hr, h1, h2⟩ := sel .priv u hu
        exact ⟨.priv, r, hr, by rw [hg, h1], h2⟩
      · cases hu

theorem readCol_typ {c : Nat} {b : Bytes} {a : Attr} (h : nssReadCol c b = .ok a) : a.typ = c := by
  unfold nssReadCol at h
  split at h
  · cases h
  · simp only at h
    generalize (if c = CKA_PARAMETER_SET then nssParamSet b else if b.length = 4 then .ok (fromBE b) else .error .attrValueInvalid : Res Nat) = x at h
    cases x with
    | error r => cases h
    | ok n => injection h with h; subst h; rfl
  · injection h with h; subst h; rfl
  · cases h
  · cases h
  · injection h with h; subst h; rfl

theorem readCols_find {row : NssRow} : ∀ (cols : List Nat) (o o' : Obj), nssReadCols row cols o = .ok o' → ∀ u,
    o'.find u = o.find u ∨ ∃ b x, AMap.get row u = some b ∧ nssReadCol u b = .ok x ∧ o'.find u = some x := by
  intro cols
  induction cols with
  | nil => intro o o' h u; injection h with h; subst h; exact .inl rfl
  | cons c cols ih =>
    intro o o' h u
    rw [nssReadCols] at h
    split at h
    · exact ih _ _ h u
    split at h
    · exact ih _ _ h u
    rename_i b hb
    split at h
    · cases h
    rename_i a ha
    split at h
    · cases h
    rename_i o1 ho1
    rcases ih _ _ h u with hx | hx
    · rw [hx, find_setAttr ho1]
      by_cases hu : a.typ = u
      · rw [if_pos hu]
        rw [readCol_typ ha] at hu
        subst hu
        exact .inr ⟨b, a, hb, ha, rfl⟩
      · rw [if_neg hu]
        exact .inl rfl
    · exact .inr hx

theorem readCols_mem {row : NssRow} : ∀ (cols : List Nat) (o o' : Obj), nssReadCols row cols o = .ok o' → ∀ u ∈ cols, nssIgnored u = false →
    ∀ b, AMap.get row u = some b → ∃ x, nssReadCol u b = .ok x ∧ o'.find u = some x := by
  intro cols
  induction cols with
  | nil => intro o o' h u hu; cases hu
  | cons c cols ih =>
    intro o o' h u hu hig b hb
    rw [nssReadCols] at h
    by_cases hc : u = c
    · subst hc
      rw [if_neg (by rw [hig]; decide)] at h
      simp only [hb] at h
      split at h
      · cases h
      rename_i a ha
      split at h
      · cases h
      rename_i o1 ho1
      refine ⟨a, ha, ?_⟩
      rcases readCols_find _ _ _ h u with hx | ⟨b', x, h1, h2, h3⟩
      · rw [hx, find_setAttr ho1, if_pos (readCol_typ ha)]
      · rw [hb] at h1
        injection h1 with h1; subst h1
        rw [ha] at h2
        injection h2 with h2; subst h2
        exact h3
    · have hu : u ∈ cols := (List.mem_cons.1 hu).resolve_left hc
      repeat' split at h
      all_goals first
        | exact ih _ _ h u hu hig b hb
        | cases h

theorem decLoop_find {e : Env} : ∀ (ts : List Nat) (i : Nat) (k k' : NssKeys) (o o1 : Obj), nssDecLoop N e ts i k o = (.ok o1, k') →
    ∀ u, u ∉ ts → o1.find u = o.find u := by
  intro ts
  induction ts with
  | nil => intro i k k' o o1 h u _; injection h with h _; injection h with h; subst h; rfl
  | cons t ts ih =>
    intro i k k' o o1 h u hu
    have hu' : u ∉ ts := fun hx => hu (.tail _ hx)
    have hut : u ≠ t := fun hx => hu (hx ▸ .head _)
    rw [nssDecLoop] at h
    split at h
    · exact ih _ _ _ _ _ h u hu'
    split at h
    · cases h
    split at h
    · cases h
    · rename_i o2 ho2
      rw [ih _ _ _ _ _ h u hu', find_setAttr ho2]
      exact if_neg (fun hx => hut hx.symm)

/-- What `fetch` gives of an attribute that is neither encrypted nor left out. -/
theorem fetch_col {e : Env} {s s' : Nss} {hs : Handles} {n : Nat} {tm : Template} {o : Obj} (h : s.fetch N e hs n tm = (.ok o, s')) {uid : Bytes}
    (hu : hs.get n = some uid) {t : NssTbl} {id : Nat} (hp : nssIdParse uid = .ok (t, id)) {row : NssRow} (hr : AMap.get (s.db.rows t) id = some row) (c : Nat)
    (hc : c ∈ nssCols) (hsec : c ∉ nssSecrets) (hig : nssIgnored c = false) (hcl : c ≠ CKA_CLASS) (ha : tm = [] ∨ c ∈ tm.map CkAttr.typ) :
    (AMap.get row c = none → o.find c = none) ∧ ∀ b, AMap.get row c = some b → ∃ x, nssReadCol c b = .ok x ∧ o.find c = some x := by
  obtain ⟨cf1, cf2, cf3⟩ := nssCols_facts
  unfold Nss.fetch at h
  simp only [hu, hp] at h
  split at h
  · cases h
  rename_i cols hcols
  split at h
  · cases h
  rename_i o1 ho1
  -- the columns
  have hcm : c ∈ (if cols = [] then nssCols else cols) := by
    by_cases hne : tm = []
    · subst hne
      unfold nssHints at hcols
      injection hcols with hcols
      rw [if_pos hcols.symm]
      exact hc
    · have hm := (nssHints_types hcols hne c).2 (cf1 c hc).1 (cf1 c hc).2.1 (.inr (ha.resolve_left hne))
      rw [if_neg (by intro hx; rw [hx] at hm; cases hm)]
      exact hm
  have base : (AMap.get row c = none → o1.find c = none) ∧ ∀ b, AMap.get row c = some b → ∃ x, nssReadCol c b = .ok x ∧ o1.find c = some x := by
    unfold NssDb.fetchById at ho1
    split at ho1
    · cases ho1
    split at ho1
    · cases ho1
    rw [hr] at ho1
    unfold nssRowObj at ho1
    simp only at ho1
    split at ho1
    · cases ho1
    rename_i o2 ho2
    split at ho1
    · cases ho1
    injection ho1 with ho1; subst ho1
    refine ⟨?_, fun b hb => readCols_mem _ _ _ ho2 c hcm hig b hb⟩
    intro hn
    rcases readCols_find _ _ _ ho2 c with hx | ⟨b, _, hb, _⟩
    · rw [hx]
      unfold Obj.find Obj.new
      rw [List.find?_cons_of_neg (by simpa using fun h => hcl h.symm)]
      rfl
    · rw [hn] at hb; cases hb
  have fin : ∀ k, ((match nssAddBack (tm.map CkAttr.typ) nssSkipped o1 with
      | .error r => (.error r, { s with keys := k })
      | .ok o => (.ok { o with handle := n }, { s with keys := k })) : Res Obj × Nss) = (.ok o, s') → o.find c = o1.find c := by
    intro k hx
    split at hx
    · cases hx
    rename_i o3 ho3
    injection hx with hx _
    injection hx with hx; subst hx
    exact addBack_find _ _ _ _ ho3 c (fun hm => by have := (cf3 c hm).2; rw [(cf1 c hc).1] at this; cases this)
  have same : o.find c = o1.find c := by
    cases hk : s.keys.enckey.isSome with
    | false =>
      simp only [hk, Bool.false_eq_true, if_false] at h
      exact fin _ h
    | true =>
      simp only [hk, if_true] at h
      generalize hz : nssDecLoop N (e.sub 1) (if t = .priv then nssSecrets else []) 0 s.keys o1 = z at h
      obtain ⟨q, k1⟩ := z
      cases q with
      | error q => simp only at h; cases h
      | ok o2 =>
        simp only at h
        have hf := decLoop_find _ _ _ _ _ _ hz c (by
          split
          · exact hsec
          · exact List.not_mem_nil)
        generalize nssVerLoop N (e.sub 2) s.db t id o2 nssSigned 0 k1 = z2 at h
        obtain ⟨q, k2⟩ := z2
        cases q with
        | error q => simp only at h; cases h
        | ok v =>
          simp only at h
          split at h
          · cases h
          rename_i o3 ho3
          injection h with h _
          injection h with h; subst h
          rw [← hf]
          exact addBack_find _ _ _ _ ho3 c (fun hm => by have := (cf3 c hm).2; rw [(cf1 c hc).1] at this; cases this)
  rw [same]
  exact base

/-- **C72 (partial).**  Without a login no attribute of an object stored as a token object and not as public is read, whatever is asked. -/
theorem C72_read_partial (e : Env) (s : Nss) (hs : Handles) (n : Nat) (tm : Template) (uid : Bytes) (hu : hs.get n = some uid) (t : NssTbl) (id : Nat)
    (hp : nssIdParse uid = .ok (t, id)) (row : NssRow) (hr : AMap.get (s.db.rows t) id = some row) (ht : AMap.get row CKA_TOKEN = some [1])
    (hpr : AMap.get row CKA_PRIVATE ≠ some [0]) (o : Obj) : (s.objectForAttrs N e hs false n tm).1 ≠ .ok o := by
  intro h
  unfold Nss.objectForAttrs at h
  simp only [Bool.false_eq_true, if_false] at h
  generalize hx : s.fetch N e hs n (tm ++ [CkAttr.ofBool CKA_TOKEN false, CkAttr.ofBool CKA_PRIVATE false]) = x at h
  obtain ⟨q, s1⟩ := x
  cases q with
  | error q => cases h
  | ok o1 =>
    simp only at h
    have htok : o1.isToken = true := by
      obtain ⟨x, h1, h2⟩ := (fetch_col hx hu hp hr CKA_TOKEN (by decide +kernel) (by decide +kernel) (by decide +kernel) (by decide) (.inr (by simp [CkAttr.ofBool]))).2 _ ht
      unfold Obj.isToken Obj.boolOr
      rw [h2]
      rw [show nssReadCol CKA_TOKEN [1] = .ok ⟨CKA_TOKEN, .bool, [1]⟩ from by decide +kernel] at h1
      injection h1 with h1; subst h1
      rfl
    have hprv : o1.isPrivate = true := by
      have hc := fetch_col hx hu hp hr CKA_PRIVATE (by decide +kernel) (by decide +kernel) (by decide +kernel) (by decide) (.inr (by simp [CkAttr.ofBool]))
      unfold Obj.isPrivate Obj.boolOr
      cases hg : AMap.get row CKA_PRIVATE with
      | none => rw [hc.1 hg]
      | some b =>
        obtain ⟨x, h1, h2⟩ := hc.2 b hg
        rw [h2]
        simp only
        have hk : nssReadCol CKA_PRIVATE b = .ok ⟨CKA_PRIVATE, .bool, if b = nssNull then [] else b⟩ := by
          unfold nssReadCol
          rw [show attrKind CKA_PRIVATE = some .bool from by decide +kernel]
        rw [hk] at h1
        injection h1 with h1; subst h1
        split
        · rename_i v hv
          have hb : (if b = nssNull then [] else b) ≠ [0] := by
            split
            · exact (by decide)
            · exact fun hx => hpr (by rw [hg, hx])
          unfold Attr.toBool at hv
          simp only [ne_eq, not_true_eq_false, if_false] at hv
          split at hv
          · rename_i y hy
            injection hv with hv
            rw [← hv]
            simp only [decide_eq_true_eq]
            exact fun h0 => hb (by rw [hy, h0])
          · cases hv
        · rfl
    rw [htok, hprv] at h
    cases h

/-- A private key and a public certificate-like key in the database. -/
def exNssMixed : Nss × Handles :=
  let x := exNssIn.store exNss (exPlaces 9) Handles.new (exNssKeyOf [Attr.ofBytes CKA_ID [1, 2], Attr.ofBool CKA_PRIVATE true])
  (x.2.1.store exNss (exPlaces 77) x.2.2 (exNssKeyOf [Attr.ofBytes CKA_ID [1, 2], Attr.ofBool CKA_PRIVATE false])).2

set_option maxRecDepth 20000 in
/-- Witness of `C72_search_partial` and `C72_read_partial`: the user finds and reads both keys, and without a login only the second is found and read. -/
theorem C72_witness :
    (exNssMixed.1.searchObjects (exCalm 0) exNssMixed.2 true [CkAttr.mk' CKA_ID [1, 2]]).1 = .ok [1, 2] ∧
    (exNssMixed.1.searchObjects (exCalm 0) exNssMixed.2 false [CkAttr.mk' CKA_ID [1, 2]]).1 = .ok [2] ∧
    exNssMixed.2.get 1 = some (nssIdFormat .priv 1) ∧ nssIdParse (nssIdFormat .priv 1) = .ok (.priv, 1) ∧
    ((AMap.get exNssMixed.1.db.priv 1).bind fun r => AMap.get r CKA_TOKEN) = some [1] ∧
    ((AMap.get exNssMixed.1.db.priv 1).bind fun r => AMap.get r CKA_PRIVATE) = some [1] ∧
    okNssObj (exNssMixed.1.objectForAttrs exNss (exCalm 0) exNssMixed.2 false 1 [CkAttr.mk' CKA_ID []]).1 = .error .objectHandleInvalid ∧
    ((okNssObj (exNssMixed.1.objectForAttrs exNss (exCalm 0) exNssMixed.2 true 1 [CkAttr.mk' CKA_ID []]).1).toOption.bind fun l => l.find? fun a => a.typ == CKA_ID)
      = some (Attr.ofBytes CKA_ID [1, 2]) := by
  decide +kernel

end Kry
